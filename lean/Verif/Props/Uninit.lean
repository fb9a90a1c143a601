import Verif.Lemmas.Uninit
import Verif.Props.Scanner
import Verif.Props.Requests
/-
C121: uninitialised memory.
-/
namespace Eip
open Spec

private theorem encodes_unique {o : Obj} {a b : Bytes} (h1 : Encodes o a) (h2 : Encodes o b) : a = b := by
  have e1 := h1.writes.stream .new
  rw [h2.writes.stream .new, Spec.appended_new, Spec.appended_new] at e1
  cases e1
  rfl

/-- C121 does not hold for connections a user builds: the forward open request of a new `Connection` has five fields from
whatever the memory contained, and requests from different memory differ. -/
theorem c121_violated (o t : ConnectionInfo) :
    (∀ g : Connection, ∃ oParams tParams : UInt32, oParams.toNat = connParams o.bufferSize.toNat false 2 2 false ∧
      tParams.toNat = connParams t.bufferSize.toNat true 2 2 false ∧
      ∀ g' : ForwardOpenRequest, Encodes ((Connection.newIn g o t).createForwardOpenRequestIn g').obj
        (forwardOpen 6 80 g.oToTConnectionId g.tToOConnectionId g.connectionSn g.originatorVendorId g.originatorSn 0
          o.rpi oParams t.rpi tParams 1
          (path false [.class' 4, .instance' 1, .connectionPoint o.assemblyId, .connectionPoint t.assemblyId]))) ∧
    (∃ g1 g2 : Connection, ∀ g' bs1 bs2, Encodes ((Connection.newIn g1 o t).createForwardOpenRequestIn g').obj bs1 →
      Encodes ((Connection.newIn g2 o t).createForwardOpenRequestIn g').obj bs2 → bs1 ≠ bs2) := by
  have key : ∀ g : Connection, ∃ oParams tParams : UInt32, oParams.toNat = connParams o.bufferSize.toNat false 2 2 false ∧
      tParams.toNat = connParams t.bufferSize.toNat true 2 2 false ∧
      ∀ g' : ForwardOpenRequest, Encodes ((Connection.newIn g o t).createForwardOpenRequestIn g').obj
        (forwardOpen 6 80 g.oToTConnectionId g.tToOConnectionId g.connectionSn g.originatorVendorId g.originatorSn 0
          o.rpi oParams t.rpi tParams 1
          (path false [.class' 4, .instance' 1, .connectionPoint o.assemblyId, .connectionPoint t.assemblyId])) := by
    intro g
    obtain ⟨a, b, h1, h2, h3⟩ := c88_open_request (Connection.newIn g o t) false
      [.class' 4, .instance' 1, .connectionPoint o.assemblyId, .connectionPoint t.assemblyId] ⟨rfl, rfl⟩ []
    exact ⟨a, b, h1, h2, fun _ => h3⟩
  refine ⟨key, ?_⟩
  obtain ⟨g1, g2, e1, e2⟩ : ∃ g1 g2 : Connection, g1.oToTConnectionId = 0 ∧ g2.oToTConnectionId = 1 :=
    ⟨{ Connection.new o t with oToTConnectionId := 0 }, { Connection.new o t with oToTConnectionId := 1 }, rfl, rfl⟩
  refine ⟨g1, g2, fun g' bs1 bs2 h1 h2 e => ?_⟩
  subst e
  obtain ⟨a1, b1, -, -, k1⟩ := key g1
  obtain ⟨a2, b2, -, -, k2⟩ := key g2
  have e3 := (encodes_unique h1 (k1 g')).symm.trans (encodes_unique h2 (k2 g'))
  rw [e1, e2] at e3
  have h0 : le 4 (0 : UInt32).toNat = [0, 0, 0, 0] := by decide
  have h1 : le 4 (1 : UInt32).toNat = [1, 0, 0, 0] := by decide
  rw [forwardOpen, forwardOpen, h0, h1] at e3
  have := congrArg (fun l : Bytes => l[2]?) e3
  simp at this

/-- C121 does not hold for requests and identities a user builds: serialised as they are constructed, all their fields but the
path and the name are what the memory contained. -/
theorem c121_violated_messages :
    (∀ g : IdentityItemData, Encodes (IdentityItemData.newIn g).obj (identity g [])) ∧
    (∀ g : ForwardOpenRequest, Encodes (ForwardOpenRequest.newIn g).obj
      (forwardOpen g.timeoutTickSize g.timeoutTicks g.oToTConnectionId g.tToOConnectionId g.connectionSn g.originatorVendorId
        g.originatorSn g.timeoutMultiplyer g.oToTRpi g.oToTConnParams g.tToORpi g.tToOConnParams g.connType
        (path false []))) := by
  refine ⟨fun g => IdentityItemData.encodes (IdentityItemData.newIn g) (by decide : ([] : Bytes).length < 256), fun g => ?_⟩
  have h := ForwardOpenRequest.encodes (ForwardOpenRequest.newIn g)
  have e : pathBytes (ForwardOpenRequest.newIn g).path = path false [] := pathBytes_eq ⟨rfl, rfl⟩
  rw [forwardOpenBytes, e] at h
  exact h

/-- C121, as far as it holds, for sessions: nothing a session sends, returns, throws or keeps depends on what the memory of the
objects contains that its calls build, in all histories. What is missing: objects a user builds, see `c121_violated` and
`c121_violated_messages`. -/
theorem c121_session_partial (g g' : Nat → Garbage) (ops : List Op) (w : World) :
    runOpsIn g ops w = runOpsIn g' ops w ∧ runOpsIn g ops w = runOps ops w ∧
    (∀ op : Op, op.runIn (g 0) w = op.runIn (g' 0) w) ∧
    (∀ o t, Session.createConnectionIn (g 0) o t w = Session.createConnectionIn (g' 0) o t w) := by
  refine ⟨?_, runOpsIn_eq g ops w, fun op => ?_, fun o t => ?_⟩
  · rw [runOpsIn_eq, runOpsIn_eq]
  · rw [runIn_eq, runIn_eq]
  · rw [createIn_eq, createIn_eq]

private theorem attribute_from {τ : Type} (c : Codec τ) (n : Nat) (fixed : ∀ v, (c.enc v).length = n) (resp : RRDataResponse)
    (raw : ∃ base s a data, resp = ⟨base, ⟨s, 0, rawData a, rawData data⟩⟩) (g g' : τ) :
    ∃ (r : Res Unit) (v v' : τ), resp.getResponseDataAs (SerializablePrimitive.cls c) ⟨g⟩ = (r, ⟨v⟩) ∧
      resp.getResponseDataAs (SerializablePrimitive.cls c) ⟨g'⟩ = (r, ⟨v'⟩) ∧ (r = .ok () → v = v') := by
  obtain ⟨base, s, a, data, rfl⟩ := raw
  by_cases hne : data = []
  · subst hne; exact ⟨.ub .nullDeref, g, g', rfl, rfl, nofun⟩
  · rw [getResponseDataAs_raw (SerializablePrimitive.cls c) rfl base s 0 (rawData a) hne,
      getResponseDataAs_raw (SerializablePrimitive.cls c) rfl base s 0 (rawData a) hne]
    rcases e : BufferReader.readBuffer n ⟨data, 0⟩ with ⟨r, br'⟩
    have run : ∀ v : τ, onReader (δ := SerializablePrimitive τ) (Reader.readInto (c.enc v)) (⟨v⟩, .buffer ⟨data, 0⟩) =
        (r, (⟨v⟩, .buffer br')) := by
      intro v
      simp only [onReader, Prog.zoom, Reader.readInto, fixed, e]
    have h2 : ∀ v : τ, deserializeFrom (SerializablePrimitive.cls c) data data.length ⟨v⟩ =
        (match readMember c (·.data) (fun d (v : SerializablePrimitive τ) => { v with data := d })
          ((⟨v⟩ : SerializablePrimitive τ), Reader.buffer ⟨data, 0⟩) with
          | (r, (d', _)) => (r, d')) := fun _ => rfl
    have h3 : ∀ v : τ, getObj ((⟨v⟩ : SerializablePrimitive τ), Reader.buffer ⟨data, 0⟩) =
      (.ok ⟨v⟩, ((⟨v⟩ : SerializablePrimitive τ), Reader.buffer ⟨data, 0⟩)) := fun _ => rfl
    rw [h2, h2, readMember, Prog.bind_ok (h3 g), Prog.bind_ok (h3 g')]
    cases r with
    | ok bs =>
      rw [Prog.bind_ok (run g), Prog.bind_ok (run g')]
      exact ⟨.ok (), c.dec bs, c.dec bs, rfl, rfl, fun _ => rfl⟩
    | throw ex =>
      rw [Prog.bind_throw (run g), Prog.bind_throw (run g')]
      exact ⟨.throw ex, g, g', rfl, rfl, nofun⟩
    | ub u =>
      rw [Prog.bind_ub (run g), Prog.bind_ub (run g')]
      exact ⟨.ub u, g, g', rfl, rfl, nofun⟩

private theorem attribute_after {τ : Type} (c : Codec τ) (n : Nat) (fixed : ∀ v, (c.enc v).length = n)
    (q : Prog World RRDataResponse) (w : World)
    (raw : ∀ resp w', q w = (.ok resp, w') → ∃ base s a data, resp = ⟨base, ⟨s, 0, rawData a, rawData data⟩⟩) (g g' : τ) :
    ∃ (r : Res Unit) (v v' : τ) (w' : World),
      (Session.onWorld q >>= fun resp => Session.onResult (resp.getResponseDataAs (SerializablePrimitive.cls c)) :
        Prog (SerializablePrimitive τ × World) Unit) (⟨g⟩, w) = (r, (⟨v⟩, w')) ∧
      (Session.onWorld q >>= fun resp => Session.onResult (resp.getResponseDataAs (SerializablePrimitive.cls c)) :
        Prog (SerializablePrimitive τ × World) Unit) (⟨g'⟩, w) = (r, (⟨v'⟩, w')) ∧ (r = .ok () → v = v') := by
  have h1 : ∀ v : τ, Session.onWorld (δ := SerializablePrimitive τ) q (⟨v⟩, w) = ((q w).1, (⟨v⟩, (q w).2)) := fun _ => rfl
  rcases hres : q w with ⟨(resp | e | u), w'⟩
  · rw [hres] at h1
    rw [Prog.bind_ok (h1 g), Prog.bind_ok (h1 g')]
    obtain ⟨r, v, v', e1, e2, h⟩ := attribute_from c n fixed resp (raw resp w' hres) g g'
    refine ⟨r, v, v', w', ?_, ?_, h⟩
    · simp only [Session.onResult, Prog.zoom, e1]
    · simp only [Session.onResult, Prog.zoom, e2]
  · rw [hres] at h1
    rw [Prog.bind_throw (h1 g), Prog.bind_throw (h1 g')]
    exact ⟨.throw e, g, g', w', rfl, rfl, nofun⟩
  · rw [hres] at h1
    rw [Prog.bind_ub (h1 g), Prog.bind_ub (h1 g')]
    exact ⟨.ub u, g, g', w', rfl, rfl, nofun⟩

/-- C121, as far as it holds, for attributes: what `getSingleAttribute` returns or throws does not depend on what its local
variable contained, for all types of a fixed size. -/
theorem c121_attribute_partial {τ : Type} (c : Codec τ) (n : Nat) (fixed : ∀ v, (c.enc v).length = n) (x y z : UInt8)
    (g g' : τ) (w : World) : Session.getSingleAttribute c x y z g w = Session.getSingleAttribute c x y z g' w := by
  have raw : ∀ resp w', Session.sendRRDataCommand 0x0E (Path.mk3 x y z) none w = (.ok resp, w') →
      ∃ base s a data, resp = ⟨base, ⟨s, 0, rawData a, rawData data⟩⟩ :=
    fun resp w' e => sendRR_raw (getAttr_cases x y z w) e
  unfold Session.getSingleAttribute Session.getSingleAttributeSerializable
  generalize Session.sendRRDataCommand 0x0E (Path.mk3 x y z) none = q at raw ⊢
  obtain ⟨r, v, v', w', e1, e2, h⟩ := attribute_after c n fixed q w raw g g'
  rw [e1, e2]
  cases r with
  | ok u => cases u; rw [h rfl]
  | throw e => rfl
  | ub u => rfl

private theorem handle_indep (env env' : ScanEnv) (a : Arrival) (s : Scanner) :
    Scanner.handleListIdentityResponse env a s = Scanner.handleListIdentityResponse env' a s := by
  cases a with
  | error => rfl
  | datagram data =>
    rcases handle_cases env data s with ⟨x, hx, e⟩ | ⟨h | h, e⟩ | e
    · rw [e, (c63_reports_partial env' data s x).2 hx]
    · rw [e, c63_violated env' data h]
    · rw [e, c63_violated_item env' data h]
    · rcases handle_cases env' data s with ⟨x, hx, e'⟩ | ⟨h | h, e'⟩ | e'
      · rw [e', (c63_reports_partial env data s x).2 hx]
      · rw [e', c63_violated env data h]
      · rw [e', c63_violated_item env data h]
      · rw [e, e']

/-- C121, as far as it holds, for the scanner: what it sends and reports does not depend on what its buffer and the identity it
parses into contained, whatever arrives. -/
theorem c121_scanner_partial (env env' : ScanEnv) (same : env.resolves = env'.resolves ∧ env.sends = env'.sends)
    (arrivals : List Arrival) (s : Scanner) : Scanner.run env arrivals s = Scanner.run env' arrivals s := by
  have e1 : Scanner.sendListIdentityRequest env s = Scanner.sendListIdentityRequest env' s := by
    rw [send_eq, send_eq, same.1, same.2]
  have e2 : ∀ (l : List Arrival) (s : Scanner), Scanner.runService env l s = Scanner.runService env' l s := by
    intro l
    induction l with
    | nil => exact fun _ => rfl
    | cons a rest ih =>
      intro s
      simp only [Scanner.runService, handle_indep env env' a]
      cases s.receives with
      | zero => rfl
      | succ n =>
        dsimp only
        rcases Scanner.handleListIdentityResponse env' a { s with receives := n } with ⟨(_ | _ | _), s'⟩
        · exact ih s'
        · rfl
        · rfl
  rw [Scanner.run, Scanner.run]
  rcases e : Scanner.sendListIdentityRequest env' s with ⟨(_ | ex | u), s'⟩
  · rw [Prog.bind_ok (e1.trans e), Prog.bind_ok e]
    exact e2 arrivals s'
  · rw [Prog.bind_throw (e1.trans e), Prog.bind_throw e]
  · rw [Prog.bind_ub (e1.trans e), Prog.bind_ub e]

/-- Two memories that differ in every member of a connection; all integer types have a fixed size. -/
example : (∃ g g' : Connection, g.connectionSn ≠ g'.connectionSn ∧ g.oToTApi ≠ g'.oToTApi ∧ g.timeoutTicks ≠ g'.timeoutTicks) ∧
    ∀ v, (Codec.u32.enc v).length = 4 :=
  ⟨⟨⟨0, 0, 0, 0, 0, 0, 0, 0, 0, 0, 0, 0, 0, 0, Path.mk0⟩, ⟨1, 1, 1, 1, 1, 1, 1, 1, 1, 1, 1, 1, 1, 1, Path.mk0⟩, by decide, by decide,
    by decide⟩, le32_length⟩

end Eip
