import Verif.Model.Connection
/-
The halves of one-way classes that only throw: requests as destinations, replies as sources.
-/
namespace Eip

/-- `Path` as a destination: both `deserialize` throw (path.h:156-167). `getLength` is that of the model's `Path`. -/
def Path.cls : Class Path where
  getLength := Path.getLength
  deserialize := notImplemented
  deserializeLen := fun _ part _ _ _ => part notImplemented
  assignBuffer := none

/-- `MessageRouterRequest` as a destination: both `deserialize` throw (message_router_request.h:120-131). -/
def MessageRouterRequest.cls : Class MessageRouterRequest where
  getLength := MessageRouterRequest.getLength
  deserialize := notImplemented
  deserializeLen := fun _ part _ _ _ => part notImplemented
  assignBuffer := none

/-- `ForwardOpenRequest` as a destination: both `deserialize` throw (forward_open_request.h:183-194). -/
def ForwardOpenRequest.cls : Class ForwardOpenRequest where
  getLength := ForwardOpenRequest.getLength
  deserialize := notImplemented
  deserializeLen := fun _ part _ _ _ => part notImplemented
  assignBuffer := none

/-- `ForwardCloseRequest` as a destination: both `deserialize` throw (forward_close_request.h:105-116). -/
def ForwardCloseRequest.cls : Class ForwardCloseRequest where
  getLength := ForwardCloseRequest.getLength
  deserialize := notImplemented
  deserializeLen := fun _ part _ _ _ => part notImplemented
  assignBuffer := none

/-- `RRDataResponse::getLength` (rr_data.h:67-75): `getData()` throws (rr_data_response.h:122-125). -/
def RRDataResponse.getLength {σ : Type} (_ : RRDataResponse) : Prog σ Nat := notImplemented

/-- `RRDataResponse::serialize` (src/rr_data.cpp:39-48): handle and timeout are written before `getData()` throws
(rr_data_response.h:122-125). -/
def RRDataResponse.serialize (r : RRDataResponse) : Prog Writer Unit := do
  Writer.write32 r.base.interfaceHandle
  Writer.write16 r.base.timeout
  notImplemented

end Eip
