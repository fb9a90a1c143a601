import Verif.Lemmas.Wired
import Verif.Spec.Network
import Verif.Props.Device
/-
C91 on the library's own sockets: from the bytes that arrive to what the user sees.
-/
namespace Eip
open Spec

variable {dns : String → String → List Endpoint}

/-- What the device answers is what is received. -/
theorem served_trace {k k' : Sockets} {as : List NetAct} {d d' : Device} (happen : AllHappen dns k as k')
    (served : ServedBy d as d') (quiet : k.tcp.inbox = []) : DeviceTrace d (calls as) d' := by
  induction served generalizing k with
  | nil => exact .nil _
  | @exchange d d1 d' req reply data rest h whole more ih =>
    cases happen with
    | cons h1 t =>
      cases t with
      | cons h2 t =>
        cases t with
        | cons h3 t =>
          cases h1 with
          | tcpSend b a n ok t1 e1 =>
            obtain ⟨s1, s2, s3, _⟩ := TCPSocket.send_sent e1
            have conn : ∃ ep, t1.isOpen = true ∧ t1.peer = some ep := by
              unfold TCPSocket.send at e1
              split at e1
              · next p a ho hp => exact ⟨p, s1.trans ho, s2.trans hp⟩
              · cases congrArg Prod.fst e1
            obtain ⟨ep, ho, hp⟩ := conn
            cases h2 with
            | bytes =>
              have ha : t1.arrive reply = { t1 with inbox := reply } := by
                simp [TCPSocket.arrive, ho, hp, s3, quiet]
              cases h3 with
              | tcpReceive del b ok t2 e2 =>
                dsimp only at e2
                rw [ha] at e2
                have : data = reply ∧ t2.inbox = [] := by
                  unfold TCPSocket.receive at e2
                  split at e2
                  · next p m _ _ =>
                    dsimp only at e2
                    split at e2
                    · cases congrArg Prod.fst e2
                    · have e3 : reply.take (min 4096 (max 1 m)) = data := by
                        have := congrArg Prod.fst e2
                        simpa using this
                      have e4 : t2.inbox = reply.drop (min 4096 (max 1 m)) := by
                        have := congrArg (fun x => x.2.inbox) e2
                        exact this.symm
                      have hl : reply.length ≤ min 4096 (max 1 m) := by
                        have := congrArg List.length e3
                        rw [List.length_take, whole] at this
                        omega
                      rw [List.take_of_length_le hl] at e3
                      rw [List.drop_eq_nil_of_le hl] at e4
                      exact ⟨e3.symm, e4⟩
                  · cases congrArg Prod.fst e2
                obtain ⟨rfl, hq⟩ := this
                exact .exchange h (ih t hq)
  | unregister more ih =>
    cases happen with
    | cons h1 t =>
      cases h1 with
      | tcpSend b a n ok t1 e1 =>
        obtain ⟨s1, s2, s3, _⟩ := TCPSocket.send_sent e1
        exact .unregister (ih t (s3.trans quiet))
  | opened s host port more ih =>
    cases happen with
    | cons h1 t =>
      cases h1 with
      | tcpOpen _ _ env _ _ t1 e1 =>
        obtain ⟨_, _, _, _, _, hi⟩ := TCPSocket.open_peer e1
        exact .opened _ _ _ (ih t hi)
      | udpOpen => exact .opened _ _ _ (ih t quiet)
  | closed s more ih =>
    cases happen with
    | cons h1 t =>
      cases h1 with
      | tcpClose works _ t1 e1 =>
        obtain rfl : _ = t1 := congrArg Prod.snd e1
        exact .closed _ (ih t rfl)
      | udpClose => exact .closed _ (ih t quiet)
  | ioSent b ok more ih =>
    cases happen with
    | cons h1 t =>
      cases h1 with
      | udpSend => exact .ioSent _ _ (ih t quiet)
  | ioReceived b ok more ih =>
    cases happen with
    | cons h1 t =>
      cases h1 with
      | udpReceive => exact .ioReceived _ _ (ih t quiet)
  | datagram sender b more ih =>
    cases happen with
    | cons h1 t =>
      cases h1 with
      | datagram => exact ih t quiet

/-- C91 on the library's own sockets: the control connection is a `TCPSocket` on which nothing waits, and the answers of a
conforming device arrive there as bytes, each in one piece. Then what a tidy user sees is what the state of the device
prescribes, and session and device agree afterwards. -/
theorem c91_network (us : List Use) (w : World) (d d' : Device) {k k' : Sockets} {as : List NetAct} (agree : Agree w.s d)
    (sound : d.Sound) (tidy : TidyUses us w) (quiet : k.tcp.inbox = []) (new : (runUses us w).2.trace = w.trace ++ calls as)
    (happen : AllHappen dns k as k') (device : ServedBy d as d') :
    ShouldAll d (runUses us w).1 d' ∧ Agree (runUses us w).2.s d' :=
  c91_refines us w d d' (calls as) agree sound tidy new (served_trace happen device quiet)

/-- The network of the example: the device answers the registration and then a request to read an attribute. -/
def exampleActs : List NetAct :=
  [.call (.opened .tcp "host" "44818" true), .call (.opened .io "host" "2222" true), .call (.sent .tcp registration true),
   .bytes (header ⟨0x65, 4, 7, 0, (0, 0), 0⟩ ++ register 1 0),
   .call (.received .tcp (header ⟨0x65, 4, 7, 0, (0, 0), 0⟩ ++ register 1 0) true),
   .datagram ⟨9, 9⟩ [1, 2, 3],
   .call (.sent .tcp (readFrame 7 1 1 7) true), .bytes (replyWith 7 0 0x8E 0 [5, 0]),
   .call (.received .tcp (replyWith 7 0 0x8E 0 [5, 0]) true)]

/-- A session is opened to a device with one attribute, which is read. -/
example : ∃ w k', (runUses [.open "host" "44818" "2222", .read 1 1 7] w).2.trace = w.trace ++ calls exampleActs ∧
    (runUses [.open "host" "44818" "2222", .read 1 1 7] w).1.map (·.2) = [.done, .bytes [5, 0]] ∧
    AllHappen (fun _ _ => [⟨1, 2⟩]) ⟨TCPSocket.new, UDPSocket.new ⟨0, 2222⟩⟩ exampleActs k' ∧
    ServedBy ⟨0, fun _ _ _ => some [5, 0], fun _ _ _ _ => false, fun _ => false, []⟩ exampleActs
      ⟨7, fun _ _ _ => some [5, 0], fun _ _ _ _ => false, fun _ => false, []⟩ := by
  have ⟨k', happen⟩ : ∃ k', AllHappen (fun _ _ => [⟨1, 2⟩]) ⟨TCPSocket.new, UDPSocket.new ⟨0, 2222⟩⟩ exampleActs k' :=
    ⟨_, .cons (.tcpOpen _ _ _ ⟨[⟨1, 2⟩], true, true, fun _ => true⟩ (.inl rfl) true _ rfl) <|
      .cons (.udpOpen _ _ _ ⟨[⟨1, 2⟩], true, true, fun _ => true⟩ (.inl rfl) true _ rfl) <|
      .cons (.tcpSend _ _ (some 100) _ true _ rfl) <| .cons (.bytes _ _) <| .cons (.tcpReceive _ (some 100) _ true _ rfl) <|
      .cons (.datagram _ _ _) <| .cons (.tcpSend _ _ (some 100) _ true _ rfl) <| .cons (.bytes _ _) <|
      .cons (.tcpReceive _ (some 100) _ true _ rfl) <| .nil _⟩
  refine ⟨⟨Session.new 1 2 3 4 [], fun n => ⟨false, if n = 3 then header ⟨0x65, 4, 7, 0, (0, 0), 0⟩ ++ register 1 0
    else replyWith 7 0 0x8E 0 [5, 0], 0⟩, 0, []⟩, k', by decide +kernel, by decide +kernel, happen, ?_⟩
  · refine .opened _ _ _ <| .opened _ _ _ <| .exchange (.register _ 7 rfl (by decide) ⟨⟨0x65, 4, 7, 0, (0, 0), 0⟩, [], rfl, rfl, rfl,
      by rw [List.append_nil]⟩) rfl <| .datagram _ _ <| .exchange (.read 1 1 7 _ [5, 0] (by decide) rfl ?_) rfl <| .nil _
    have := replyWith_response (handle := 7) (by decide) 0 0x8E 0 [5, 0] [] (by simp)
    rwa [List.append_nil] at this

end Eip
