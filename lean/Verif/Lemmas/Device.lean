import Verif.Spec.Device
import Verif.Lemmas.Open
import Verif.Lemmas.Ops
import Verif.Lemmas.Requests
/-
Inversion of what a device serves.
-/
namespace Eip
open Spec

/-! ### Frames -/

theorem command_inj {h h' : UInt32} {s s' : UInt8} {segs segs' : List Segment} {data data' : Bytes}
    (e : command h s segs data = command h' s' segs' data') :
    s = s' ∧ path false segs ++ data = path false segs' ++ data' := by
  obtain ⟨m, h1, _, e1⟩ := command_prefix h s segs data
  obtain ⟨m', h1', _, e1'⟩ := command_prefix h' s' segs' data'
  rw [e1, e1'] at e
  have := (List.append_inj e (by omega)).2
  simp only [List.cons_append, List.nil_append, List.cons.injEq] at this
  exact this

theorem command_inj3 {h h' : UInt32} {s s' x y z x' y' z' : UInt8} {data data' : Bytes}
    (e : command h s [.class' x, .instance' y, .attribute z] data =
      command h' s' [.class' x', .instance' y', .attribute z'] data') :
    s = s' ∧ x = x' ∧ y = y' ∧ z = z' ∧ data = data' := by
  obtain ⟨h1, h2⟩ := command_inj e
  have p3 : ∀ a b c : UInt8, path false [.class' a, .instance' b, .attribute c] = [3, 0x20, a, 0x24, b, 0x30, c] :=
    fun a b c => by simp [path, Segment.bytes, le]
  rw [p3, p3] at h2
  simp only [List.cons_append, List.nil_append, List.cons.injEq, true_and] at h2
  exact ⟨h1, h2.1, h2.2.1, h2.2.2.1, h2.2.2.2⟩

theorem command_inj2 {h h' : UInt32} {s s' : UInt8} {data data' : Bytes}
    (e : command h s [.class' 6, .instance' 1] data = command h' s' [.class' 6, .instance' 1] data') :
    s = s' ∧ data = data' := by
  obtain ⟨h1, h2⟩ := command_inj e
  exact ⟨h1, List.append_cancel_left h2⟩

theorem registration_ne_command {h : UInt32} {s : UInt8} {segs : List Segment} {data : Bytes} :
    registration ≠ command h s segs data := by
  intro e
  have := (command_service h s segs data).1
  rw [← e] at this
  revert this
  decide

/-! ### The trace of a device -/

theorem Spec.DeviceTrace.sent_inv {d d' : Device} {b : Bytes} {ok : Bool} {rest : List Ev}
    (h : DeviceTrace d (.sent .tcp b ok :: rest) d') : ok = true ∧
    ((∃ reply rest' d1, rest = .received .tcp reply true :: rest' ∧ Serves d b reply d1 ∧ DeviceTrace d1 rest' d') ∨
     (b = request 0x66 d.handle [] ∧ DeviceTrace { d with handle := 0, conns := [] } rest d') ∨
     (b ≠ request 0x66 d.handle [] ∧ ∃ d1, DeviceTrace d1 rest d')) := by
  generalize he : Ev.sent .tcp b ok :: rest = evs at h
  cases h with
  | exchange h more =>
    simp only [List.cons.injEq, Ev.sent.injEq, true_and] at he
    obtain ⟨⟨rfl, rfl⟩, rfl⟩ := he
    exact ⟨rfl, .inl ⟨_, _, _, rfl, h, more⟩⟩
  | unregister more =>
    simp only [List.cons.injEq, Ev.sent.injEq, true_and] at he
    obtain ⟨⟨rfl, rfl⟩, rfl⟩ := he
    exact ⟨rfl, .inr (.inl ⟨rfl, more⟩)⟩
  | unanswered hb more =>
    simp only [List.cons.injEq, Ev.sent.injEq, true_and] at he
    obtain ⟨⟨rfl, rfl⟩, rfl⟩ := he
    exact ⟨rfl, .inr (.inr ⟨hb, _, more⟩)⟩
  | nil => cases he
  | opened => cases he
  | closed => cases he
  | ioSent => cases he
  | ioReceived => cases he

theorem Spec.DeviceTrace.exchange_inv {d d' : Device} {b reply : Bytes} {ok : Bool} {rest : List Ev}
    (h : DeviceTrace d (.sent .tcp b true :: .received .tcp reply ok :: rest) d') :
    ok = true ∧ ∃ d1, Serves d b reply d1 ∧ DeviceTrace d1 rest d' := by
  obtain ⟨_, ⟨reply', rest', d1, e, hs, more⟩ | ⟨_, more⟩ | ⟨_, _, more⟩⟩ := h.sent_inv
  · simp only [List.cons.injEq, Ev.received.injEq, true_and] at e
    obtain ⟨⟨rfl, rfl⟩, rfl⟩ := e
    exact ⟨rfl, d1, hs, more⟩
  · cases more
  · cases more

theorem Spec.DeviceTrace.unregister_inv {d d' : Device} {s : Sock} {ok ok' : Bool} {rest : List Ev}
    (h : DeviceTrace d (.sent .tcp (request 0x66 d.handle []) ok' :: .closed s ok :: rest) d') :
    ok' = true ∧ ok = true ∧ DeviceTrace { d with handle := 0, conns := [] } rest d' := by
  obtain ⟨e1, ⟨reply', rest', d1, e, hs, more⟩ | ⟨_, more⟩ | ⟨hb, _⟩⟩ := h.sent_inv
  · cases e
  · cases more with
    | closed _ more => exact ⟨e1, rfl, more⟩
  · exact absurd rfl hb

theorem Spec.DeviceTrace.opened_inv {d d' : Device} {s : Sock} {host port : String} {ok : Bool} {rest : List Ev}
    (h : DeviceTrace d (.opened s host port ok :: rest) d') : ok = true ∧ DeviceTrace d rest d' := by
  cases h with
  | opened _ _ _ more => exact ⟨rfl, more⟩

theorem Spec.DeviceTrace.closed_inv {d d' : Device} {s : Sock} {ok : Bool} {rest : List Ev}
    (h : DeviceTrace d (.closed s ok :: rest) d') : ok = true ∧ DeviceTrace d rest d' := by
  cases h with
  | closed _ more => exact ⟨rfl, more⟩

/-! ### What is served -/

/-- The three kinds of answers to a command. -/
theorem serves_read {d d1 : Device} {x y z : UInt8} {reply : Bytes}
    (h : Serves d (readFrame d.handle x y z) reply d1) : d1 = d ∧
    ((d.handle = 0 ∧ Packet reply 0x006F 0 []) ∨
     (d.handle ≠ 0 ∧ ∃ v, d.attr x y z = some v ∧ Response d.handle reply 0x8E 0 v) ∨
     (d.attr x y z = none ∧ ∃ status data, status ≠ 0 ∧ Response d.handle reply 0x8E status data)) := by
  generalize he : readFrame d.handle x y z = req at h
  cases h with
  | other _ _ _ hu =>
    refine absurd ?_ hu
    by_cases hd : d.handle = 0
    · refine .inl ⟨hd, .inr ?_⟩
      rw [← he, hd]
      exact ⟨_, _, _, rfl⟩
    · exact .inr ⟨hd, .inl ⟨x, y, z, he.symm⟩⟩
  | register => exact absurd he.symm registration_ne_command
  | registerRefused => exact absurd he.symm registration_ne_command
  | noSession _ _ _ _ none hp => exact ⟨rfl, .inl ⟨none, hp⟩⟩
  | read x' y' z' _ v hd hv hr =>
    obtain ⟨_, rfl, rfl, rfl, _⟩ := command_inj3 he
    exact ⟨rfl, .inr (.inl ⟨hd, v, hv, hr⟩)⟩
  | readRefused x' y' z' _ data status hd hv bad hr =>
    obtain ⟨_, rfl, rfl, rfl, _⟩ := command_inj3 he
    exact ⟨rfl, .inr (.inr ⟨hv, status, data, bad, hr⟩)⟩
  | write => exact absurd (command_inj he).1 (by decide)
  | writeRefused => exact absurd (command_inj he).1 (by decide)
  | connect => exact absurd (command_inj he).1 (by decide)
  | connectRefused => exact absurd (command_inj he).1 (by decide)
  | disconnect => exact absurd (command_inj he).1 (by decide)
  | disconnectRefused => exact absurd (command_inj he).1 (by decide)

theorem serves_write {d d1 : Device} {x y z : UInt8} {bs reply : Bytes}
    (h : Serves d (writeFrame d.handle x y z bs) reply d1) :
    (d1 = d ∧ d.handle = 0 ∧ Packet reply 0x006F 0 []) ∨
    (d1 = d.store x y z bs ∧ d.handle ≠ 0 ∧ d.writable x y z bs = true ∧ ∃ data, Response d.handle reply 0x90 0 data) ∨
    (d1 = d ∧ d.writable x y z bs = false ∧ ∃ status data, status ≠ 0 ∧ Response d.handle reply 0x90 status data) := by
  generalize he : writeFrame d.handle x y z bs = req at h
  cases h with
  | other _ _ _ hu =>
    refine absurd ?_ hu
    by_cases hd : d.handle = 0
    · refine .inl ⟨hd, .inr ?_⟩
      rw [← he, hd]
      exact ⟨_, _, _, rfl⟩
    · exact .inr ⟨hd, .inr (.inl ⟨x, y, z, bs, he.symm⟩)⟩
  | register => exact absurd he.symm registration_ne_command
  | registerRefused => exact absurd he.symm registration_ne_command
  | noSession _ _ _ _ none hp => exact .inl ⟨rfl, none, hp⟩
  | write x' y' z' bs' _ data hd hw hr =>
    obtain ⟨_, rfl, rfl, rfl, rfl⟩ := command_inj3 he
    exact .inr (.inl ⟨rfl, hd, hw, data, hr⟩)
  | writeRefused x' y' z' bs' _ data status hd hw bad hr =>
    obtain ⟨_, rfl, rfl, rfl, rfl⟩ := command_inj3 he
    exact .inr (.inr ⟨rfl, hw, status, data, bad, hr⟩)
  | read => exact absurd (command_inj he).1 (by decide)
  | readRefused => exact absurd (command_inj he).1 (by decide)
  | connect => exact absurd (command_inj he).1 (by decide)
  | connectRefused => exact absurd (command_inj he).1 (by decide)
  | disconnect => exact absurd (command_inj he).1 (by decide)
  | disconnectRefused => exact absurd (command_inj he).1 (by decide)

theorem serves_connect {d d1 : Device} {body reply : Bytes} (h : Serves d (openFrame d.handle body) reply d1) :
    (d1 = d ∧ d.handle = 0 ∧ Packet reply 0x006F 0 []) ∨
    (d.handle ≠ 0 ∧ ∃ c data oApi tApi, d1 = { d with conns := d.conns ++ [c] } ∧ triadOf body = c.name ∧
      d.grants body = true ∧ (∀ c' ∈ d.conns, c'.name ≠ c.name) ∧
      Response d.handle reply 0xDB 0 data ∧ OpenReply data c.oToT c.tToO c.sn c.vendor c.originator oApi tApi) ∨
    (d1 = d ∧ (d.grants body = false ∨ ∃ c ∈ d.conns, c.name = triadOf body) ∧
      ∃ status data, status ≠ 0 ∧ Response d.handle reply 0xDB status data) := by
  generalize he : openFrame d.handle body = req at h
  cases h with
  | other _ _ _ hu =>
    refine absurd ?_ hu
    by_cases hd : d.handle = 0
    · refine .inl ⟨hd, .inr ?_⟩
      rw [← he, hd]
      exact ⟨_, _, _, rfl⟩
    · exact .inr ⟨hd, .inr (.inr (.inl ⟨body, he.symm⟩))⟩
  | register => exact absurd he.symm registration_ne_command
  | registerRefused => exact absurd he.symm registration_ne_command
  | noSession _ _ _ _ none hp => exact .inl ⟨rfl, none, hp⟩
  | connect body' _ data c oApi tApi hd hn hg new hr ho =>
    obtain ⟨_, rfl⟩ := command_inj2 he
    exact .inr (.inl ⟨hd, c, data, oApi, tApi, rfl, hn, hg, new, hr, ho⟩)
  | connectRefused body' _ data status hd hg bad hr =>
    obtain ⟨_, rfl⟩ := command_inj2 he
    exact .inr (.inr ⟨rfl, hg, status, data, bad, hr⟩)
  | read => exact absurd (command_inj he).1 (by decide)
  | readRefused => exact absurd (command_inj he).1 (by decide)
  | write => exact absurd (command_inj he).1 (by decide)
  | writeRefused => exact absurd (command_inj he).1 (by decide)
  | disconnect => exact absurd (command_inj he).1 (by decide)
  | disconnectRefused => exact absurd (command_inj he).1 (by decide)

theorem serves_disconnect {d d1 : Device} {body reply : Bytes} (h : Serves d (closeFrame d.handle body) reply d1) :
    (d1 = d ∧ d.handle = 0 ∧ Packet reply 0x006F 0 []) ∨
    (d.handle ≠ 0 ∧ ∃ c data, d1 = { d with conns := d.conns.erase c } ∧ c ∈ d.conns ∧ (body.drop 2).take 8 = c.name ∧
      Response d.handle reply 0xCE 0 data ∧ CloseReply data c.sn c.vendor c.originator) ∨
    (d1 = d ∧ d.handle ≠ 0 ∧ (∀ c ∈ d.conns, c.name ≠ (body.drop 2).take 8)) := by
  generalize he : closeFrame d.handle body = req at h
  cases h with
  | other _ _ _ hu =>
    refine absurd ?_ hu
    by_cases hd : d.handle = 0
    · refine .inl ⟨hd, .inr ?_⟩
      rw [← he, hd]
      exact ⟨_, _, _, rfl⟩
    · exact .inr ⟨hd, .inr (.inr (.inr ⟨body, he.symm⟩))⟩
  | register => exact absurd he.symm registration_ne_command
  | registerRefused => exact absurd he.symm registration_ne_command
  | noSession _ _ _ _ none hp => exact .inl ⟨rfl, none, hp⟩
  | disconnect body' _ data c hd hc hn hr ho =>
    obtain ⟨_, rfl⟩ := command_inj2 he
    exact .inr (.inl ⟨hd, c, data, rfl, hc, hn, hr, ho⟩)
  | disconnectRefused body' _ data status hd hn bad hr =>
    obtain ⟨_, rfl⟩ := command_inj2 he
    exact .inr (.inr ⟨rfl, hd, hn⟩)
  | read => exact absurd (command_inj he).1 (by decide)
  | readRefused => exact absurd (command_inj he).1 (by decide)
  | write => exact absurd (command_inj he).1 (by decide)
  | writeRefused => exact absurd (command_inj he).1 (by decide)
  | connect => exact absurd (command_inj he).1 (by decide)
  | connectRefused => exact absurd (command_inj he).1 (by decide)

theorem serves_register {d d1 : Device} {reply : Bytes} (free : d.handle = 0) (h : Serves d registration reply d1) :
    ((∃ handle, handle ≠ 0 ∧ d1 = { d with handle := handle } ∧ Packet reply 0x0065 handle (register 1 0)) ∨
     (d1 = d ∧ ∃ payload, Packet reply 0x0065 0 payload)) := by
  generalize he : registration = req at h
  cases h with
  | register _ handle free nz hp => exact .inl ⟨handle, nz, rfl, hp⟩
  | registerRefused _ payload free hp => exact .inr ⟨rfl, payload, hp⟩
  | other _ _ _ hu => exact absurd (.inl ⟨free, .inl he.symm⟩) hu
  | noSession => exact absurd he registration_ne_command
  | read => exact absurd he registration_ne_command
  | readRefused => exact absurd he registration_ne_command
  | write => exact absurd he registration_ne_command
  | writeRefused => exact absurd he registration_ne_command
  | connect => exact absurd he registration_ne_command
  | connectRefused => exact absurd he registration_ne_command
  | disconnect => exact absurd he registration_ne_command
  | disconnectRefused => exact absurd he registration_ne_command

/-! ### What the session makes of it -/

theorem RROutcome.of_response {id : UInt32} {bytes data : Bytes} {s : UInt8} {r : Res RRDataResponse}
    (h : RROutcome id bytes r) (hr : Response id bytes s 0 data) :
    ∃ base a, r = .ok ⟨base, ⟨s, 0, rawData a, rawData data⟩⟩ := by
  cases h with
  | good base s' a data' hr' =>
    obtain ⟨h1, _, h3⟩ := Response.unique hr hr'
    subst h1 h3
    exact ⟨base, a, rfl⟩
  | hollow hh => exact (Response.not_hollow hr hh).elim
  | refused what h1 h2 => exact absurd ⟨_, _, hr⟩ h1

theorem RROutcome.of_status {id : UInt32} {bytes data : Bytes} {s status : UInt8} {r : Res RRDataResponse}
    (h : RROutcome id bytes r) (hr : Response id bytes s status data) (bad : status ≠ 0) :
    ∃ what, r = .throw (runtimeError what) := by
  cases h with
  | good base s' a data' hr' => exact absurd (Response.unique hr hr').2.1 bad
  | hollow hh => exact (Response.not_hollow hr hh).elim
  | refused what h1 h2 => exact ⟨what, rfl⟩

theorem RROutcome.of_zero {bytes payload : Bytes} {r : Res RRDataResponse}
    (h : RROutcome 0 bytes r) (hp : Packet bytes 0x006F 0 payload) : ∃ what, r = .throw (runtimeError what) := by
  have no : ∀ p, ¬ RRFrame 0 bytes p := by
    rintro p ⟨handle, hp', ha⟩
    obtain ⟨_, rfl, _⟩ := Packet.unique hp hp'
    rcases ha with ⟨_, h⟩ | ⟨h, _⟩ <;> exact h rfl
  cases h with
  | good base s' a data' hr' => obtain ⟨p, _, f, _⟩ := hr'; exact (no p f).elim
  | hollow hh => obtain ⟨p, f, _⟩ := hh; exact (no p f).elim
  | refused what h1 h2 => exact ⟨what, rfl⟩

theorem RRCases.served {w w1 : World} {bs : Bytes} {r : Res RRDataResponse} (h : RRCases w bs (r, w1)) {evs rest : List Ev}
    {d d' : Device} (id : w.s.sessionId = d.handle) (ht : w1.trace = w.trace ++ evs)
    (dt : DeviceTrace d (evs ++ rest) d') :
    w1 = w.exchanged bs ∧ RROutcome d.handle (delivered w.env (w.clock + 1)) r ∧
      ∃ d1, Serves d bs (delivered w.env (w.clock + 1)) d1 ∧ DeviceTrace d1 rest d' := by
  cases h with
  | sendFails hf =>
    have : evs = [.sent .tcp bs false] := (List.append_cancel_left ht).symm
    subst this
    exact absurd dt.sent_inv.1 (by decide)
  | receiveFails hf hf' =>
    simp only [World.after, List.append_assoc] at ht
    have : evs = [.sent .tcp bs true, .received .tcp (delivered w.env (w.clock + 1)) false] :=
      (List.append_cancel_left ht).symm
    subst this
    exact absurd dt.exchange_inv.1 (by decide)
  | replied hw _ hr =>
    have : evs = [.sent .tcp bs true, .received .tcp (delivered w.env (w.clock + 1)) true] :=
      (List.append_cancel_left ht).symm
    subst this
    rw [← id]
    exact ⟨rfl, hr, dt.exchange_inv.2⟩

end Eip
