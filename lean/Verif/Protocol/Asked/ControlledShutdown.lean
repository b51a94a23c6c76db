import Verif.Protocol.Conform.ControlledShutdown
/-!
Generated by tools/gen_protocol.py: the ControlledShutdown request is read as the protocol says.
-/
namespace Kafka.Msg

open Protocol

/-- What `ControlledShutdownRequest` holds after reading the value `x` into `t0`. -/
def ControlledShutdownRequest.of (v : Int16) (x : Val) (t0 : ControlledShutdownRequest) : ControlledShutdownRequest :=
  { BrokerId := (x.get "BrokerId").toInt32,
    BrokerEpoch := if v ≥ 2 then (x.get "BrokerEpoch").toInt64 else t0.BrokerEpoch }

theorem ControlledShutdownRequest.decodes {v : Int16} (hv : 0 ≤ v) (x : Val) (h : Protocol.ControlledShutdownRequest.Valid false v x) (t0 : ControlledShutdownRequest) :
    Reads (ControlledShutdownRequest.decode v t0) (Protocol.ControlledShutdownRequest.wire false v x) (ControlledShutdownRequest.of v x t0) :=
  Reads.congr (((Step.field (set := fun (t : ControlledShutdownRequest) x => { t with BrokerId := x }) (read_int32 (Fields.Valid.head (h) hv)))
      |>.andThen (Step.optField (c := v ≥ 2) (set := fun (t : ControlledShutdownRequest) x => { t with BrokerEpoch := x }) (·.BrokerEpoch) (fun _ => rfl) fun hc => read_int64 (Fields.Valid.head (Fields.Valid.tail h) hc)) : Step _ _ _) t0)
    (Writes.eq (fs := Protocol.ControlledShutdownRequest) (v := v) (x := x) <| Writes.all hv rfl <| Writes.since rfl <| Writes.done).symm rfl

theorem ControlledShutdownRequest.parses {v : Int16} (hv : 0 ≤ v) (t0 : ControlledShutdownRequest) :
    Parses (ControlledShutdownRequest.decode v t0) ((Ty.struct Protocol.ControlledShutdownRequest).parse v) (fun x => ControlledShutdownRequest.of v x t0) :=
  FParses.parses (fs := Protocol.ControlledShutdownRequest)
    (FParses.field hv (set := fun (t : ControlledShutdownRequest) x => { t with BrokerId := x }) par_int32 <|
    FParses.optField (c := v ≥ 2) Iff.rfl (set := fun (t : ControlledShutdownRequest) x => { t with BrokerEpoch := x }) (·.BrokerEpoch) (fun _ => rfl) par_int64 <|
    FParses.done)
    (by simp only [ControlledShutdownRequest.decode, Dec.andThen_nop]) (Fields.distinct_nodup _ (by decide +kernel)) (fun _ _ => rfl) t0

theorem ControlledShutdownRequest.shown {v : Int16} (hv : 0 ≤ v) (x : Val) (h : Protocol.ControlledShutdownRequest.Typed v x) :
    Protocol.ControlledShutdownRequest.shows v x (ControlledShutdownRequest.val (ControlledShutdownRequest.of v x {})) = true :=
  Shows.all hv (show_int32 (Fields.Typed.head (h) hv)) <|
    Shows.since (.int64) rfl (fun hc => show_int64 (Fields.Typed.head (Fields.Typed.tail h) hc)) rfl <|
    rfl

end Kafka.Msg
