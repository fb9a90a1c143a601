import Verif.Lemmas.DeviceSteps
import Verif.Props.Connections
/-
C91: a session with a conforming device at the other end. C92: attributes that do not fit the receive buffer.
-/
namespace Eip
open Spec

/-! ### C91 -/

/-- C91. Whatever a tidy user does with a session whose control connection works and leads to a conforming device, every
outcome is the one prescribed by the state of the device at that time, and afterwards session and device agree on the
session handle and on the list of open connections. -/
theorem c91_refines (us : List Use) (w : World) (d d' : Device) (evs : List Ev) (agree : Agree w.s d) (sound : d.Sound)
    (tidy : TidyUses us w) (new : (runUses us w).2.trace = w.trace ++ evs) (device : DeviceTrace d evs d') :
    ShouldAll d (runUses us w).1 d' ∧ Agree (runUses us w).2.s d' := by
  obtain ⟨d1, h1, h2, _, h4⟩ := uses_served us (rest := []) agree sound tidy new (by rw [List.append_nil]; exact device)
  cases h4
  exact ⟨h1, h2⟩

theorem should_not_other {d d' : Device} {l : List (Use × Outcome)} (h : ShouldAll d l d') :
    ∀ u o, (u, o) ∈ l → o = .other → u = .receiveIO ∨ ∃ pkt, u = .sendIO pkt := by
  induction h with
  | nil => intro u o h; cases h
  | cons h more ih =>
    intro u o hm ho
    rcases List.mem_cons.mp hm with e | hm
    · cases e
      subst ho
      cases h with
      | sendIO pkt => exact .inr ⟨pkt, rfl⟩
      | receiveIO => exact .inl rfl
    · exact ih u o hm ho

/-- C91. With a conforming device a call on the control connection either succeeds or throws `runtime_error`: no other
exception and no undefined behaviour. -/
theorem c91_no_surprise (us : List Use) (w : World) (d d' : Device) (evs : List Ev) (agree : Agree w.s d) (sound : d.Sound)
    (tidy : TidyUses us w) (new : (runUses us w).2.trace = w.trace ++ evs) (device : DeviceTrace d evs d')
    (u : Use) (o : Outcome) (h : (u, o) ∈ (runUses us w).1) (control : u ≠ .receiveIO) (control' : ∀ pkt, u ≠ .sendIO pkt) :
    o ≠ .other := by
  intro ho
  rcases should_not_other (c91_refines us w d d' evs agree sound tidy new device).1 u o h ho with h | ⟨pkt, h⟩
  · exact control h
  · exact control' pkt h

/-- A use that writes the attribute. -/
def Writes' (x y z : UInt8) : Use → Prop
  | .write x' y' z' _ _ => x' = x ∧ y' = y ∧ z' = z
  | _ => False

theorem should_keeps {d d1 : Device} {u : Use} {o : Outcome} (h : Should d u o d1) {x y z : UInt8}
    (other : ¬ Writes' x y z u) : d1.attr x y z = d.attr x y z := by
  cases h with
  | written x' y' z' o' bs hd hw =>
    rw [Device.store]
    dsimp only
    rw [if_neg]
    rintro ⟨rfl, rfl, rfl⟩
    exact other ⟨rfl, rfl, rfl⟩
  | _ => rfl

theorem should_keeps_all {d d1 : Device} {l : List (Use × Outcome)} (h : ShouldAll d l d1) {x y z : UInt8}
    (other : ∀ p ∈ l, ¬ Writes' x y z p.1) : d1.attr x y z = d.attr x y z := by
  induction h with
  | nil => rfl
  | cons h more ih =>
    rw [ih (fun p hp => other p (List.mem_cons_of_mem _ hp)), should_keeps h (other _ List.mem_cons_self)]

theorem should_append {d d' : Device} {l l' : List (Use × Outcome)} (h : ShouldAll d (l ++ l') d') :
    ∃ d1, ShouldAll d l d1 ∧ ShouldAll d1 l' d' := by
  induction l generalizing d with
  | nil => exact ⟨d, .nil d, h⟩
  | cons p l ih =>
    cases h with
    | cons h more =>
      obtain ⟨d1, h1, h2⟩ := ih more
      exact ⟨d1, .cons h h1, h2⟩

/-- C91. Read your writes: once a value has been written to an attribute, reading the attribute gives that value or is
refused, whatever else is done in between except writing the attribute. -/
theorem c91_read_back (us : List Use) (w : World) (d d' : Device) (evs : List Ev) (agree : Agree w.s d) (sound : d.Sound)
    (tidy : TidyUses us w) (new : (runUses us w).2.trace = w.trace ++ evs) (device : DeviceTrace d evs d')
    (before between after : List (Use × Outcome)) (x y z : UInt8) (o : Obj) (bs : Bytes) (out : Outcome)
    (h : (runUses us w).1 = before ++ [(.write x y z o bs, .done)] ++ between ++ [(.read x y z, out)] ++ after)
    (other : ∀ p ∈ between, ∀ o' bs', p.1 ≠ .write x y z o' bs') : out = .bytes bs ∨ out = .refused := by
  have sh := (c91_refines us w d d' evs agree sound tidy new device).1
  rw [h] at sh
  obtain ⟨_, sh, _⟩ := should_append sh
  obtain ⟨d4, sh, hr⟩ := should_append sh
  obtain ⟨d3, sh, hb⟩ := should_append sh
  obtain ⟨d2, _, hw⟩ := should_append sh
  have e : d4.attr x y z = d3.attr x y z := by
    refine should_keeps_all hb (fun p hp hw => ?_)
    have := other p hp
    rcases p with ⟨u, o'⟩
    cases u with
    | write x' y' z' o'' bs'' =>
      obtain ⟨rfl, rfl, rfl⟩ := hw
      exact this _ _ rfl
    | _ => exact hw
  cases hw with
  | cons hw more =>
    cases more
    cases hw with
    | written _ _ _ _ _ hd hwr =>
      rw [show (d2.store x y z bs).attr x y z = some bs by rw [Device.store]; simp] at e
      cases hr with
      | cons hr more =>
        cases hr with
        | read _ _ _ v hd hv =>
          rw [e] at hv
          cases hv
          exact .inl rfl
        | readRefused => exact .inr rfl

/-! A device with one attribute, used from opening the session to closing it. -/

/-- The device: attribute (1, 2, 3) has the value 5 and can be set to any two bytes; all connections are granted. -/
def c91_device : Device :=
  ⟨0, fun x y z => if x = 1 ∧ y = 2 ∧ z = 3 then some [5, 0] else none, fun _ _ _ bs => bs.length == 2, fun _ => true, []⟩

/-- The replies of the device, in the order of the socket calls. -/
def c91_replies : List Bytes :=
  [[], [], [], header ⟨0x65, 4, 7, 0, (0, 0), 0⟩ ++ register 1 0,
   [], replyWith 7 0 0x90 0 [],
   [], replyWith 7 0 0x8E 0 [6, 0],
   [], replyWith 7 0 0x8E 5 [],
   [], replyWith 7 0 0xDB 0 (forwardOpenReply 11 12 3 1 2 13 14 0 0 []),
   [], replyWith 7 0 0xCE 0 (forwardCloseReply 3 1 2 0 0 [])]

def c91_world : World := ⟨Session.new 1 2 3 4 [], fun n => ⟨false, c91_replies.getD n [], 0⟩, 0, []⟩

def c91_uses : List Use :=
  [.open "h" "p" "q", .write 1 2 3 (SerializablePrimitive.obj Codec.u16 ⟨6⟩) [6, 0], .read 1 2 3, .read 1 2 4,
   .connect ⟨1, 2, 3⟩ ⟨4, 5, 6⟩, .disconnect 0, .close]

def c91_events : List Ev :=
  [.opened .tcp "h" "p" true, .opened .io "h" "q" true,
   .sent .tcp registration true, .received .tcp (header ⟨0x65, 4, 7, 0, (0, 0), 0⟩ ++ register 1 0) true,
   .sent .tcp (writeFrame 7 1 2 3 [6, 0]) true, .received .tcp (replyWith 7 0 0x90 0 []) true,
   .sent .tcp (readFrame 7 1 2 3) true, .received .tcp (replyWith 7 0 0x8E 0 [6, 0]) true,
   .sent .tcp (readFrame 7 1 2 4) true, .received .tcp (replyWith 7 0 0x8E 5 []) true,
   .sent .tcp (openFrame 7 (openBody (Session.new 1 2 3 4 []) ⟨1, 2, 3⟩ ⟨4, 5, 6⟩)) true,
   .received .tcp (replyWith 7 0 0xDB 0 (forwardOpenReply 11 12 3 1 2 13 14 0 0 [])) true,
   .sent .tcp (closeFrame 7 (forwardClose 6 80 3 1 2 (path true [.class' 2, .instance' 1]))) true,
   .received .tcp (replyWith 7 0 0xCE 0 (forwardCloseReply 3 1 2 0 0 [])) true,
   .sent .tcp (request 0x66 7 []) true, .closed .tcp true, .closed .io true]


example : (runUses c91_uses c91_world).1.map Prod.snd =
    [.done, .done, .bytes [6, 0], .refused, .number 0, .done, .done] := by decide +kernel

example : Agree c91_world.s c91_device := ⟨rfl, rfl⟩

example : c91_device.Sound := by
  refine ⟨fun x y z => ?_, fun x y z => rfl, by simp [c91_device]⟩
  simp only [c91_device]
  split <;> simp

theorem replyWith_packet (handle status : UInt32) (s st : UInt8) (data tail : Bytes) (hl : data.length < 60000) :
    ∃ payload, payload = rrData 0 0 (mrReply s 0 st 0 [] data) ∧ payload.length = data.length + 20 ∧
      Packet (replyWith handle status s st data ++ tail) 0x006F handle payload := by
  have hlen : (rrData 0 0 (mrReply s 0 st 0 [] data)).length = data.length + 20 := by
    simp [rrData, cpf, item, mrReply]
    omega
  refine ⟨_, rfl, hlen, ⟨0x6F, UInt16.ofNat (rrData 0 0 (mrReply s 0 st 0 [] data)).length, handle, status, (0, 0), 0⟩, tail,
    rfl, rfl, ?_, rfl⟩
  dsimp only
  rw [UInt16.toNat_ofNat', hlen]
  exact Nat.mod_eq_of_lt (by omega)

theorem replyWith_response {handle : UInt32} (hh : handle ≠ 0) (status : UInt32) (s st : UInt8) (data tail : Bytes)
    (hl : data.length < 60000) : Response handle (replyWith handle status s st data ++ tail) s st data := by
  obtain ⟨payload, e, _, hp⟩ := replyWith_packet handle status s st data tail hl
  refine ⟨payload, [], ⟨handle, hp, .inr ⟨hh, rfl⟩⟩, 0, 0, rfl, 0, 0, [], [], ?_, ?_⟩
  · refine ⟨show 2 < 65536 by decide, ?_⟩
    intro i hi
    simp only [List.mem_cons, List.not_mem_nil, or_false] at hi
    rcases hi with rfl | rfl
    · decide
    · simp only [mrReply, List.length_append, List.length_cons, List.length_nil]
      omega
  · rw [List.append_nil, e]
    rfl

example : (runUses c91_uses c91_world).2.trace = c91_world.trace ++ c91_events := by decide +kernel

example : TidyUses c91_uses c91_world := by
  simp only [c91_uses, TidyUses, Use.Tidy, and_true, true_and]
  refine ⟨rfl, SerializablePrimitive.encodes Codec.u16 6, ?_, ?_, ?_⟩
  all_goals decide +kernel

/-- The state of the device at the end. -/
def c91_end : Device := c91_device.store 1 2 3 [6, 0]

example : DeviceTrace c91_device c91_events c91_end := by
  have nz : (7 : UInt32) ≠ 0 := by decide
  have r : ∀ (s st : UInt8) (data : Bytes), data.length < 60000 → Response 7 (replyWith 7 0 s st data) s st data := by
    intro s st data h
    have := replyWith_response nz 0 s st data [] h
    rwa [List.append_nil] at this
  refine .opened _ _ _ (.opened _ _ _ (.exchange (.register _ 7 rfl nz
    ⟨⟨0x65, 4, 7, 0, (0, 0), 0⟩, [], rfl, rfl, rfl, by rw [List.append_nil]⟩) ?_))
  refine .exchange (.write 1 2 3 [6, 0] _ [] nz rfl (r _ _ _ (by decide +kernel))) ?_
  refine .exchange (.read 1 2 3 _ [6, 0] nz rfl (r _ _ _ (by decide +kernel))) ?_
  refine .exchange (.readRefused 1 2 4 _ [] 5 nz rfl (by decide) (r _ _ _ (by decide +kernel))) ?_
  refine .exchange (.connect _ _ _ ⟨11, 12, 3, 1, 2⟩ 13 14 nz ?_ rfl ?_ (r _ _ _ (by decide +kernel)) ⟨0, 0, [], [], rfl, by rw [List.append_nil]⟩) ?_
  · decide +kernel
  · intro c hc; cases hc
  refine .exchange (.disconnect _ _ _ ⟨11, 12, 3, 1, 2⟩ nz ?_ ?_ (r _ _ _ (by decide +kernel)) ⟨0, 0, [], [], rfl, by rw [List.append_nil]⟩) ?_
  · exact List.mem_cons_self
  · decide +kernel
  exact .unregister (.closed _ (.closed _ (.nil _)))

/-! ### C92 -/

theorem Packet.of_take {bytes : Bytes} {n : Nat} {c : UInt16} {h : UInt32} {p : Bytes} (x : Packet (bytes.take n) c h p) :
    Packet bytes c h p ∧ 24 + p.length ≤ n := by
  obtain ⟨e, tail, h1, h2, h3, h4⟩ := x
  refine ⟨⟨e, tail ++ bytes.drop n, h1, h2, h3, ?_⟩, ?_⟩
  · rw [← List.append_assoc, ← h4, List.take_append_drop]
  · have := congrArg List.length h4
    simp at this
    omega

theorem cut_reply {bytes : Bytes} {c : UInt16} {h : UInt32} {payload : Bytes} (reply : Packet bytes c h payload) {n : Nat}
    (big : n < 24 + payload.length) : ∀ c h p, ¬ Packet (bytes.take n) c h p := by
  intro c h p hp
  obtain ⟨hp', hl⟩ := Packet.of_take hp
  obtain ⟨_, _, rfl⟩ := Packet.unique reply hp'
  omega

/-- C92 is false: when the device answers with a frame of more than 4096 bytes - which the protocol allows - every command
throws `runtime_error`, although the whole frame has arrived. -/
theorem c92_violated (op : Op) (cmd : IsCommand op) (w : World) (proper : Proper w.s op) (works : Works w.env w.clock)
    (command : UInt16) (handle : UInt32) (payload : Bytes)
    (reply : Packet (w.env (w.clock + 1)).data command handle payload) (big : 4096 < 24 + payload.length) :
    ∃ what w', op.run w = (.throw (runtimeError what), w') := by
  have no := cut_reply reply big
  obtain ⟨what, w', h, _⟩ := refused_throws op cmd w proper works
    (by rintro ⟨s, data, p, a, ⟨h, hp, _⟩, _⟩; exact no _ _ _ hp)
    (by rintro ⟨p, ⟨h, hp, _⟩, _⟩; exact no _ _ _ hp)
  exact ⟨what, w', h⟩

/-- C92. In particular an attribute of more than 4052 bytes cannot be read, although the device sends it. -/
theorem c92_violated_attribute (x y z : UInt8) (w : World) (works : Works w.env w.clock)
    (v : Bytes) (reply : (w.env (w.clock + 1)).data = replyWith w.s.sessionId 0 0x8E 0 v) (big : 4052 < v.length)
    (legal : v.length < 60000) : ((Use.read x y z).run w).1 = .refused := by
  obtain ⟨payload, _, hl, hp⟩ := replyWith_packet w.s.sessionId 0 0x8E 0 v [] legal
  rw [List.append_nil, ← reply] at hp
  have no := cut_reply hp (n := 4096) (by omega)
  have rr := getAttr_cases x y z w
  rw [Use.run, getAttr_eq]
  generalize Session.sendRRDataCommand 0x0E (Path.mk3 x y z) none w = a at rr ⊢
  cases rr with
  | sendFails h => rw [works.1] at h; cases h
  | receiveFails _ h => rw [works.2] at h; cases h
  | replied hw _ hr =>
    cases hr with
    | good base s a data hr => obtain ⟨p, _, ⟨h, hp, _⟩, _⟩ := hr; exact (no _ _ _ hp).elim
    | hollow hh => obtain ⟨p, ⟨h, hp, _⟩, _⟩ := hh; exact (no _ _ _ hp).elim
    | refused what h1 h2 => rfl

/-- C92 (partial). Attributes of up to 4052 bytes are read as the device sends them. Missing: longer ones. -/
theorem c92_small_partial (x y z : UInt8) (w : World) (opened : w.s.sessionId ≠ 0) (works : Works w.env w.clock)
    (v : Bytes) (reply : (w.env (w.clock + 1)).data = replyWith w.s.sessionId 0 0x8E 0 v) (small : v.length ≤ 4052)
    (some : v ≠ []) : ((Use.read x y z).run w).1 = .bytes v := by
  have full := replyWith_response opened 0 0x8E 0 v [] (by omega)
  rw [List.append_nil, ← reply] at full
  have hlen : (w.env (w.clock + 1)).data.length ≤ 4096 := by
    rw [reply]
    simp [replyWith, rrData, cpf, item, mrReply]
    omega
  have e : delivered w.env (w.clock + 1) = (w.env (w.clock + 1)).data := List.take_of_length_le hlen
  rw [← e] at full
  obtain ⟨w', _, h⟩ := c38_get_raw x y z ⟨[]⟩ w works 0x8E v full some
  rw [Use.run, h]
  rfl

example : ((Use.read 1 2 3).run (answering (replyWith 7 0 0x8E 0 [6, 0]))).1 = .bytes [6, 0] :=
  c92_small_partial 1 2 3 (answering (replyWith 7 0 0x8E 0 [6, 0])) (by decide) ⟨rfl, rfl⟩ [6, 0] rfl (by decide) (by decide)

example (v : Bytes) (h : v.length = 4053) : ((Use.read 1 2 3).run (answering (replyWith 7 0 0x8E 0 v))).1 = .refused :=
  c92_violated_attribute 1 2 3 (answering (replyWith 7 0 0x8E 0 v)) ⟨rfl, rfl⟩ v rfl (by omega) (by omega)

end Eip
