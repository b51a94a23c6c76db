import Verif.Protocol.Conform.DeleteTopics
/-!
Generated by tools/gen_protocol.py: the DeleteTopics request is read as the protocol says.
-/
namespace Kafka.Msg

open Protocol

/-- What `DeleteTopicsRequest` holds after reading the value `x` into `t0`. -/
def DeleteTopicsRequest.of (_v : Int16) (x : Val) (_t0 : DeleteTopicsRequest) : DeleteTopicsRequest :=
  { TopicNames := (x.get "TopicNames").toSlice Val.toStr,
    TimeoutMs := (x.get "TimeoutMs").toInt32 }

theorem DeleteTopicsRequest.decodes {v : Int16} (hv : 0 ≤ v) (x : Val) (h : Protocol.DeleteTopicsRequest.Valid false v x) (t0 : DeleteTopicsRequest) :
    Reads (DeleteTopicsRequest.decode v t0) (Protocol.DeleteTopicsRequest.wire false v x) (DeleteTopicsRequest.of v x t0) :=
  Reads.congr (((Step.field (set := fun (t : DeleteTopicsRequest) x => { t with TopicNames := x }) (read_stringArray (Fields.Valid.head (h) hv)))
      |>.andThen (Step.field (set := fun (t : DeleteTopicsRequest) x => { t with TimeoutMs := x }) (read_int32 (Fields.Valid.head (Fields.Valid.tail h) hv))) : Step _ _ _) t0)
    (Writes.eq (fs := Protocol.DeleteTopicsRequest) (v := v) (x := x) <| Writes.all hv rfl <| Writes.all hv rfl <| Writes.done).symm rfl

theorem DeleteTopicsRequest.parses {v : Int16} (hv : 0 ≤ v) (t0 : DeleteTopicsRequest) :
    Parses (DeleteTopicsRequest.decode v t0) ((Ty.struct Protocol.DeleteTopicsRequest).parse v) (fun x => DeleteTopicsRequest.of v x t0) :=
  FParses.parses (fs := Protocol.DeleteTopicsRequest)
    (FParses.field hv (set := fun (t : DeleteTopicsRequest) x => { t with TopicNames := x }) par_stringArray <|
    FParses.field hv (set := fun (t : DeleteTopicsRequest) x => { t with TimeoutMs := x }) par_int32 <|
    FParses.done)
    (by simp only [DeleteTopicsRequest.decode, Dec.andThen_nop]) (Fields.distinct_nodup _ (by decide +kernel)) (fun _ _ => rfl) t0

theorem DeleteTopicsRequest.shown {v : Int16} (hv : 0 ≤ v) (x : Val) (h : Protocol.DeleteTopicsRequest.Typed v x) :
    Protocol.DeleteTopicsRequest.shows v x (DeleteTopicsRequest.val (DeleteTopicsRequest.of v x {})) = true :=
  Shows.all hv (show_stringArray (Fields.Typed.head (h) hv)) <|
    Shows.all hv (show_int32 (Fields.Typed.head (Fields.Typed.tail h) hv)) <|
    rfl

end Kafka.Msg
