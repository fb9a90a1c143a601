import Verif.Lemmas.Open
/-
C25 - C31: opening a session.
-/
namespace Eip
open Spec

/-! ### C25 -/

/-- The registration request is the standard 28 byte message. -/
theorem c25_registration_bytes : registration =
    [0x65, 0, 4, 0, 0, 0, 0, 0, 0, 0, 0, 0, 0, 0, 0, 0, 0, 0, 0, 0, 0, 0, 0, 0, 1, 0, 0, 0] := by decide

/-- C25. Whatever the sockets do, `open` performs an initial part of one fixed sequence of calls; a call that fails is
the last one; and if it returns normally it has performed exactly the first four, of which one is a send. -/
theorem c25_open_calls (host port ioPort : String) (w : World) :
    ∃ evs, (Session.open host port ioPort w).2.trace = w.trace ++ evs ∧
      evs.map call <+: [.open .tcp host port, .open .io host ioPort, .send .tcp registration, .receive .tcp,
        .close .tcp, .close .io] ∧
      (∀ e ∈ evs.dropLast, succeeded e = true) ∧
      ((Session.open host port ioPort w).1 = .ok () →
        evs.map call = [.open .tcp host port, .open .io host ioPort, .send .tcp registration, .receive .tcp] ∧
        ∀ e ∈ evs, succeeded e = true) := by
  have key : ∀ r, OpenCases host port ioPort w r → ∃ evs, r.2.trace = w.trace ++ evs ∧
      evs.map call <+: [.open .tcp host port, .open .io host ioPort, .send .tcp registration, .receive .tcp,
        .close .tcp, .close .io] ∧
      (∀ e ∈ evs.dropLast, succeeded e = true) ∧
      (r.1 = .ok () →
        evs.map call = [.open .tcp host port, .open .io host ioPort, .send .tcp registration, .receive .tcp] ∧
        ∀ e ∈ evs, succeeded e = true) := by
    intro r hr
    cases hr <;> refine ⟨_, rfl, ?_⟩ <;> simp [openEvents, call, succeeded]
  exact key _ (open_cases host port ioPort w)

/-- All socket calls succeed and the device answers a registration with handle 7. -/
def c25_world : World where
  s := Session.new 1 2 3 4 []
  env := fun _ => ⟨false, header ⟨0x65, 4, 7, 0, (0, 0), 0⟩ ++ register 1 0, 0⟩
  clock := 0
  trace := []

example : (Session.open "h" "p" "q" c25_world).1 = .ok () := by decide +kernel

/-! ### C26 -/

/-- C26. After a successful `open` the session id is the non-zero handle of the registration frame received by this
call; if that frame carries at least four bytes, they start with protocol version 1. -/
theorem c26_open_adopts_handle (host port ioPort : String) (w w' : World)
    (h : Session.open host port ioPort w = (.ok (), w')) :
    w'.s.sessionId ≠ 0 ∧ ∃ bytes payload evs, w'.trace = w.trace ++ evs ++ [.received .tcp bytes true] ∧
      bytes = delivered w.env (w.clock + 3) ∧
      Packet bytes 0x0065 w'.s.sessionId payload ∧ (4 ≤ payload.length → payload.take 2 = le 2 1) := by
  have hc := open_cases host port ioPort w
  rw [h] at hc
  cases hc with
  | registered handle hw hr =>
    obtain ⟨payload, pk, ha, hne, hv⟩ := hr
    refine ⟨?_, delivered w.env (w.clock + 3), payload, [.opened .tcp host port true, .opened .io host ioPort true,
      .sent .tcp registration true], ?_, rfl, pk, ?_⟩
    · rcases ha with ⟨_, b⟩ | ⟨a, b⟩
      · exact b
      · show handle ≠ 0
        rw [b]; exact a
    · simp [World.replied, World.logS, openEvents]
    · intro h4
      rcases hv with hv | hv
      · omega
      · exact hv

example : ∃ w', Session.open "h" "p" "q" c25_world = (.ok (), w') ∧ w'.s.sessionId = 7 := by
  refine ⟨(Session.open "h" "p" "q" c25_world).2, ?_, by decide +kernel⟩
  have : (Session.open "h" "p" "q" c25_world).1 = .ok () := by decide +kernel
  rw [← this]

/-! ### C27 -/

/-- C27. When the sockets work and the reply is not a register-session frame with an acceptable handle and, if it has
room for one, a protocol version 1, then `open` throws `runtime_error`, the last two calls closed both sockets and the
session id is unchanged. -/
theorem c27_rejected_closes (host port ioPort : String) (w : World)
    (works : ∀ i, i < 6 → (w.env (w.clock + i)).fails = false)
    (bad : ¬ ∃ handle payload, Packet (delivered w.env (w.clock + 3)) 0x0065 handle payload ∧
      Acceptable w.s.sessionId handle ∧ (4 ≤ payload.length → payload.take 2 = le 2 1)) :
    ∃ what w' evs, Session.open host port ioPort w = (.throw (runtimeError what), w') ∧
      w'.trace = w.trace ++ evs ++ [.closed .tcp true, .closed .io true] ∧
      isOpen .tcp true w'.trace = false ∧ isOpen .io true w'.trace = false ∧
      w'.s.sessionId = w.s.sessionId := by
  have hc := open_cases host port ioPort w
  have h0 := works 0 (by omega)
  have h1 := works 1 (by omega)
  have h2 := works 2 (by omega)
  have h3 := works 3 (by omega)
  have h4 := works 4 (by omega)
  have h5 := works 5 (by omega)
  generalize he : Session.open host port ioPort w = r at hc ⊢
  cases hc with
  | tcpFails h => simp at h0; rw [h0] at h; cases h
  | ioFails _ h => rw [h1] at h; cases h
  | sendFails _ _ h => rw [h2] at h; cases h
  | receiveFails _ _ _ h => rw [h3] at h; cases h
  | registered handle hw hr =>
    obtain ⟨payload, pk, ha, hne, hv⟩ := hr
    refine absurd ⟨handle, payload, pk, ha, ?_⟩ bad
    intro h4
    rcases hv with hv | hv
    · omega
    · exact hv
  | hollow hw hr =>
    obtain ⟨handle, pk, ha⟩ := hr
    exact absurd ⟨handle, [], pk, ha, by simp⟩ bad
  | rejected what hw hc n1 n2 =>
    refine ⟨what, _, openEvents host port ioPort (delivered w.env (w.clock + 3)), rfl, ?_, ?_, ?_, rfl⟩
    · simp [World.replied, World.logS]
    · simp only [World.replied, World.logS, isOpen_append]
      simp [isOpen]
    · simp only [World.replied, World.logS, isOpen_append]
      simp [isOpen]
  | tcpCloseFails _ h => rw [h4] at h; cases h
  | ioCloseFails _ _ h => rw [h5] at h; cases h

/-- An empty reply is such a reply. -/
example (s : Session) : ¬ ∃ handle payload, Packet (delivered (fun _ => ⟨false, [], 0⟩) 3) 0x0065 handle payload ∧
    Acceptable s.sessionId handle ∧ (4 ≤ payload.length → payload.take 2 = le 2 1) := by
  rintro ⟨handle, payload, ⟨h, t, _, _, _, e⟩, _⟩
  have := congrArg List.length e
  simp [delivered, header, le] at this
  omega

/-! ### C28 -/

/-- C28. On a session that is not open, with working sockets, the reply alone decides between three outcomes: success
with the handle of the reply; a null pointer dereference; `runtime_error`. -/
theorem c28_outcome (host port ioPort : String) (w : World) (closed : w.s.sessionId = 0)
    (works : ∀ i, i < 6 → (w.env (w.clock + i)).fails = false) :
    (∀ handle, (∃ payload, Packet (delivered w.env (w.clock + 3)) 0x0065 handle payload ∧ handle ≠ 0 ∧
        payload ≠ [] ∧ (payload.length < 4 ∨ payload.take 2 = le 2 1)) →
      ∃ w', Session.open host port ioPort w = (.ok (), w') ∧ w'.s.sessionId = handle) ∧
    ((∃ handle, Packet (delivered w.env (w.clock + 3)) 0x0065 handle [] ∧ handle ≠ 0) →
      ∃ w', Session.open host port ioPort w = (.ub .nullDeref, w')) ∧
    ((¬ ∃ handle payload, Packet (delivered w.env (w.clock + 3)) 0x0065 handle payload ∧ handle ≠ 0 ∧
        (payload.length < 4 ∨ payload.take 2 = le 2 1)) →
      ∃ what w', Session.open host port ioPort w = (.throw (runtimeError what), w')) := by
  have hc := open_cases host port ioPort w
  have h0 := works 0 (by omega)
  have h1 := works 1 (by omega)
  have h2 := works 2 (by omega)
  have h3 := works 3 (by omega)
  have h4 := works 4 (by omega)
  have h5 := works 5 (by omega)
  have acc : ∀ handle, Acceptable w.s.sessionId handle ↔ handle ≠ 0 := by
    intro handle
    simp [Acceptable, closed]
  generalize he : Session.open host port ioPort w = r at hc ⊢
  cases hc with
  | tcpFails h => simp at h0; rw [h0] at h; cases h
  | ioFails _ h => rw [h1] at h; cases h
  | sendFails _ _ h => rw [h2] at h; cases h
  | receiveFails _ _ _ h => rw [h3] at h; cases h
  | registered handle hw hr =>
    obtain ⟨payload, pk, ha, hne, hv⟩ := hr
    refine ⟨?_, ?_, ?_⟩
    · rintro handle' ⟨payload', pk', _⟩
      exact ⟨_, rfl, (Packet.unique pk pk').2.1⟩
    · rintro ⟨handle', pk', _⟩
      exact absurd (Packet.unique pk pk').2.2 hne
    · intro h
      exact absurd ⟨handle, payload, pk, (acc _).1 ha, hv⟩ h
  | hollow hw hr =>
    obtain ⟨handle, pk, ha⟩ := hr
    refine ⟨?_, ?_, ?_⟩
    · rintro handle' ⟨payload', pk', _, hne, _⟩
      exact absurd (Packet.unique pk pk').2.2.symm hne
    · intro _; exact ⟨_, rfl⟩
    · intro h
      exact absurd ⟨handle, [], pk, (acc _).1 ha, Or.inl (by simp)⟩ h
  | rejected what hw hc n1 n2 =>
    refine ⟨?_, ?_, fun _ => ⟨what, _, rfl⟩⟩
    · rintro handle ⟨payload, pk, hh, hne, hv⟩
      exact absurd ⟨handle, payload, pk, (acc _).2 hh, hne, hv⟩ n1
    · rintro ⟨handle, pk, hh⟩
      exact absurd ⟨handle, pk, (acc _).2 hh⟩ n2
  | tcpCloseFails _ h => rw [h4] at h; cases h
  | ioCloseFails _ _ h => rw [h5] at h; cases h

/-- Success is thus equivalent to a good reply. -/
theorem c28_success_iff (host port ioPort : String) (w : World) (closed : w.s.sessionId = 0)
    (works : ∀ i, i < 6 → (w.env (w.clock + i)).fails = false) :
    (Session.open host port ioPort w).1 = .ok () ↔
      ∃ handle payload, Packet (delivered w.env (w.clock + 3)) 0x0065 handle payload ∧ handle ≠ 0 ∧
        payload ≠ [] ∧ (payload.length < 4 ∨ payload.take 2 = le 2 1) := by
  obtain ⟨a, b, c⟩ := c28_outcome host port ioPort w closed works
  constructor
  · intro h
    by_cases hx : ∃ handle payload, Packet (delivered w.env (w.clock + 3)) 0x0065 handle payload ∧ handle ≠ 0 ∧
        (payload.length < 4 ∨ payload.take 2 = le 2 1)
    · obtain ⟨handle, payload, pk, hh, hv⟩ := hx
      by_cases hne : payload = []
      · subst hne
        obtain ⟨w', e⟩ := b ⟨handle, pk, hh⟩
        rw [e] at h; cases h
      · exact ⟨handle, payload, pk, hh, hne, hv⟩
    · obtain ⟨what, w', e⟩ := c hx
      rw [e] at h; cases h
  · rintro ⟨handle, payload, h⟩
    obtain ⟨w', e, _⟩ := a handle ⟨payload, h⟩
    rw [e]

example : c25_world.s.sessionId = 0 ∧ ∀ i, i < 6 → (c25_world.env (c25_world.clock + i)).fails = false :=
  ⟨rfl, fun _ _ => rfl⟩

/-! ### C29 -/

/-- C29 is false on every session with working sockets: a registration reply with a good handle and no payload. -/
theorem c29_violated (host port ioPort : String) (w : World) (works : ∀ i, i < 4 → (w.env (w.clock + i)).fails = false)
    (handle : UInt32) (h : EncapHeader) (hh : h = ⟨0x65, 0, handle, h.status, h.context, h.options⟩)
    (ok : Acceptable w.s.sessionId handle) (reply : (w.env (w.clock + 3)).data = header h) :
    ∃ w', Session.open host port ioPort w = (.ub .nullDeref, w') := by
  have hc := open_cases host port ioPort w
  have h0 := works 0 (by omega)
  have h1 := works 1 (by omega)
  have h2 := works 2 (by omega)
  have h3 := works 3 (by omega)
  have hdel : delivered w.env (w.clock + 3) = header h := by
    rw [delivered, reply, List.take_of_length_le]
    simp [header]
  have pk : Packet (delivered w.env (w.clock + 3)) 0x0065 handle [] := by
    refine ⟨h, [], ?_, ?_, ?_, ?_⟩
    · rw [hh]
    · rw [hh]
    · rw [hh]; rfl
    · rw [hdel]; simp
  have hol : HollowRegistration w.s.sessionId (delivered w.env (w.clock + 3)) := ⟨handle, pk, ok⟩
  generalize he : Session.open host port ioPort w = r at hc ⊢
  cases hc with
  | tcpFails h => simp at h0; rw [h0] at h; cases h
  | ioFails _ h => rw [h1] at h; cases h
  | sendFails _ _ h => rw [h2] at h; cases h
  | receiveFails _ _ _ h => rw [h3] at h; cases h
  | registered handle' hw hr =>
    obtain ⟨payload, pk', ha, hne, hv⟩ := hr
    exact absurd (Packet.unique pk pk').2.2.symm hne
  | hollow hw hr => exact ⟨_, rfl⟩
  | rejected _ _ _ _ n2 => exact absurd hol n2
  | tcpCloseFails _ _ _ n2 => exact absurd hol n2
  | ioCloseFails _ _ _ _ n2 => exact absurd hol n2

/-- A fresh session and the reply 65 00 00 00 | 07 00 00 00 | 0... -/
example : (Session.open "h" "p" "q" { c25_world with
    env := fun _ => ⟨false, header ⟨0x65, 0, 7, 0, (0, 0), 0⟩, 0⟩ }).1 = .ub .nullDeref := by decide +kernel

/-- C29 (partial). Undefined behaviour is hit only by a frame with the right command, an acceptable handle and no
payload. Missing: that reply. -/
theorem c29_survives_partial (host port ioPort : String) (w w' : World) (u : UB)
    (h : Session.open host port ioPort w = (.ub u, w')) :
    u = .nullDeref ∧ ∃ handle, Packet (delivered w.env (w.clock + 3)) 0x0065 handle [] ∧
      Acceptable w.s.sessionId handle := by
  have hc := open_cases host port ioPort w
  rw [h] at hc
  cases hc with
  | hollow _ hr => exact ⟨rfl, hr⟩

/-! ### C30 -/

/-- C30 is false: a socket error while sending the registration or receiving the reply leaves both sockets open, a
failure to open the IO socket leaves the control socket open. -/
theorem c30_violated (host port ioPort : String) (w : World) (b b' : Bool) :
    ((w.env w.clock).fails = false → (w.env (w.clock + 1)).fails = true →
      ∃ w', Session.open host port ioPort w = (.throw systemError, w') ∧ isOpen .tcp b w'.trace = true) ∧
    ((∀ i, i < 2 → (w.env (w.clock + i)).fails = false) →
      ((w.env (w.clock + 2)).fails = true ∨ (w.env (w.clock + 3)).fails = true) →
      ∃ w', Session.open host port ioPort w = (.throw systemError, w') ∧
        isOpen .tcp b w'.trace = true ∧ isOpen .io b' w'.trace = true) := by
  have hc := open_cases host port ioPort w
  generalize he : Session.open host port ioPort w = r at hc ⊢
  refine ⟨fun h0 h1 => ?_, fun h01 h23 => ?_⟩
  · cases hc with
    | tcpFails h => rw [h0] at h; cases h
    | ioFails => exact ⟨_, rfl, by simp only [World.log, isOpen_append]; simp [isOpen]⟩
    | sendFails _ h => rw [h1] at h; cases h
    | receiveFails _ h => rw [h1] at h; cases h
    | registered _ hw => rw [hw.2.1] at h1; cases h1
    | hollow hw => rw [hw.2.1] at h1; cases h1
    | rejected _ hw => rw [hw.2.1] at h1; cases h1
    | tcpCloseFails hw => rw [hw.2.1] at h1; cases h1
    | ioCloseFails hw => rw [hw.2.1] at h1; cases h1
  · have h0 := h01 0 (by omega)
    have h1 := h01 1 (by omega)
    have no : OpenWorks w → False := by
      rintro ⟨_, _, a, b⟩
      rcases h23 with h | h
      · rw [a] at h; cases h
      · rw [show w.clock + 2 + 1 = w.clock + 3 from rfl] at b
        rw [b] at h; cases h
    cases hc with
    | tcpFails h => simp at h0; rw [h0] at h; cases h
    | ioFails _ h => rw [h1] at h; cases h
    | sendFails =>
      exact ⟨_, rfl, by simp only [World.log, isOpen_append]; simp [isOpen],
        by simp only [World.log, isOpen_append]; simp [isOpen]⟩
    | receiveFails =>
      exact ⟨_, rfl, by simp only [World.log, isOpen_append]; simp [isOpen],
        by simp only [World.log, isOpen_append]; simp [isOpen]⟩
    | registered _ hw => exact absurd hw no
    | hollow hw => exact absurd hw no
    | rejected _ hw => exact absurd hw no
    | tcpCloseFails hw => exact absurd hw no
    | ioCloseFails hw => exact absurd hw no

/-- C30 (partial). If `open` throws anything but a socket error, both sockets have been closed; if the very first call
fails, nothing was opened. Missing: the other socket errors, for which it is false. -/
theorem c30_no_socket_left_partial (host port ioPort : String) (w w' : World) (e : Exn)
    (thrown : Session.open host port ioPort w = (.throw e, w')) :
    (e.kind ≠ .systemError → isOpen .tcp true w'.trace = false ∧ isOpen .io true w'.trace = false) ∧
    ((w.env w.clock).fails = true → ∀ s b, isOpen s b w'.trace = isOpen s b w.trace) := by
  have hc := open_cases host port ioPort w
  rw [thrown] at hc
  cases hc with
  | tcpFails h => exact ⟨fun h => absurd rfl h, fun _ s b => by simp only [World.log, isOpen_append]; simp [isOpen]⟩
  | ioFails h => exact ⟨fun h => absurd rfl h, fun h' => by rw [h] at h'; cases h'⟩
  | sendFails h => exact ⟨fun h => absurd rfl h, fun h' => by rw [h] at h'; cases h'⟩
  | receiveFails h => exact ⟨fun h => absurd rfl h, fun h' => by rw [h] at h'; cases h'⟩
  | rejected what hw hc n1 n2 =>
    refine ⟨fun _ => ⟨?_, ?_⟩, fun h' => by rw [hw.1] at h'; cases h'⟩
    · simp only [World.replied, World.logS, isOpen_append]
      simp [isOpen]
    · simp only [World.replied, World.logS, isOpen_append]
      simp [isOpen]
  | tcpCloseFails hw => exact ⟨fun h => absurd rfl h, fun h' => by rw [hw.1] at h'; cases h'⟩
  | ioCloseFails hw => exact ⟨fun h => absurd rfl h, fun h' => by rw [hw.1] at h'; cases h'⟩

/-- Both situations occur. -/
example : (Session.open "h" "p" "q" { c25_world with env := fun n => ⟨n = 3, [], 0⟩ }).1 = .throw systemError ∧
    isOpen .tcp false (Session.open "h" "p" "q" { c25_world with env := fun n => ⟨n = 3, [], 0⟩ }).2.trace = true := by
  decide +kernel

example : ∃ what, (Session.open "h" "p" "q" { c25_world with env := fun _ => ⟨false, [], 0⟩ }).1 =
    .throw (runtimeError what) := ⟨"Invalid response received registering session", by decide +kernel⟩

/-! ### C31 -/

/-- A failed `open` never changes the session id. -/
theorem c31_failed_open_keeps_id (host port ioPort : String) (w w' : World) (e : Exn)
    (h : Session.open host port ioPort w = (.throw e, w')) : w'.s.sessionId = w.s.sessionId := by
  have hc := open_cases host port ioPort w
  rw [h] at hc
  cases hc <;> rfl

/-- C31 is false for every session that is open: when opening it again fails, it still counts as open, although after
a rejected reply both its sockets are closed. -/
theorem c31_violated (host port ioPort : String) (w : World) (wasOpen : w.s.sessionId ≠ 0)
    (works : ∀ i, i < 6 → (w.env (w.clock + i)).fails = false) (reply : (w.env (w.clock + 3)).data = []) :
    ∃ e w', Session.open host port ioPort w = (.throw e, w') ∧ w'.s.sessionId ≠ 0 ∧
      isOpen .tcp true w'.trace = false ∧ isOpen .io true w'.trace = false := by
  obtain ⟨what, w', evs, e, _, h1, h2, h3⟩ := c27_rejected_closes host port ioPort w works (by
    rintro ⟨handle, payload, ⟨h, t, _, _, _, e⟩, _⟩
    rw [delivered, reply] at e
    have := congrArg List.length e
    simp [header] at this
    omega)
  exact ⟨_, w', e, by rw [h3]; exact wasOpen, h1, h2⟩

/-- The device answers the first registration only. -/
def c31_world : World :=
  { c25_world with env := fun n => if n = 3 then ⟨false, header ⟨0x65, 4, 7, 0, (0, 0), 0⟩ ++ register 1 0, 0⟩ else ⟨false, [], 0⟩ }

example : (Session.open "h" "p" "q" (Session.open "h" "p" "q" c31_world).2).2.s.sessionId = 7 := by decide +kernel

/-- C31 (partial: sessions that were not open). Missing: sessions that were open, for which it is false. -/
theorem c31_stays_closed_partial (host port ioPort : String) (w w' : World) (e : Exn) (closed : w.s.sessionId = 0)
    (h : Session.open host port ioPort w = (.throw e, w')) : w'.s.sessionId = 0 := by
  rw [c31_failed_open_keeps_id host port ioPort w w' e h, closed]

end Eip
