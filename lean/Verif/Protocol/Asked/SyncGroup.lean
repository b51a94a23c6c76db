import Verif.Protocol.Conform.SyncGroup
/-!
Generated by tools/gen_protocol.py: the SyncGroup request is read as the protocol says.
-/
namespace Kafka.Msg

open Protocol

/-- What `SyncGroupRequestAssignment14` holds after reading the value `x` into `t0`. -/
def SyncGroupRequestAssignment14.of (_v : Int16) (x : Val) (_t0 : SyncGroupRequestAssignment14) : SyncGroupRequestAssignment14 :=
  { MemberId := (x.get "MemberId").toStr,
    Assignment := (x.get "Assignment").toBytes }

theorem SyncGroupRequestAssignment14.decodes {v : Int16} (hv : 0 ≤ v) (x : Val) (h : Protocol.SyncGroupRequestAssignment.Valid false v x) (t0 : SyncGroupRequestAssignment14) :
    Reads (SyncGroupRequestAssignment14.decode v t0) (Protocol.SyncGroupRequestAssignment.wire false v x) (SyncGroupRequestAssignment14.of v x t0) :=
  Reads.congr (((Step.field (set := fun (t : SyncGroupRequestAssignment14) x => { t with MemberId := x }) (read_string (Fields.Valid.head (h) hv)))
      |>.andThen (Step.field (set := fun (t : SyncGroupRequestAssignment14) x => { t with Assignment := x }) (read_bytes (Fields.Valid.head (Fields.Valid.tail h) hv))) : Step _ _ _) t0)
    (Writes.eq (fs := Protocol.SyncGroupRequestAssignment) (v := v) (x := x) <| Writes.all hv rfl <| Writes.all hv rfl <| Writes.done).symm rfl

theorem SyncGroupRequestAssignment14.parses {v : Int16} (hv : 0 ≤ v) (t0 : SyncGroupRequestAssignment14) :
    Parses (SyncGroupRequestAssignment14.decode v t0) ((Ty.struct Protocol.SyncGroupRequestAssignment).parse v) (fun x => SyncGroupRequestAssignment14.of v x t0) :=
  FParses.parses (fs := Protocol.SyncGroupRequestAssignment)
    (FParses.field hv (set := fun (t : SyncGroupRequestAssignment14) x => { t with MemberId := x }) par_string <|
    FParses.field hv (set := fun (t : SyncGroupRequestAssignment14) x => { t with Assignment := x }) par_bytes <|
    FParses.done)
    (by simp only [SyncGroupRequestAssignment14.decode, Dec.andThen_nop]) (Fields.distinct_nodup _ (by decide +kernel)) (fun _ _ => rfl) t0

theorem SyncGroupRequestAssignment14.shown {v : Int16} (hv : 0 ≤ v) (x : Val) (h : Protocol.SyncGroupRequestAssignment.Typed v x) :
    Protocol.SyncGroupRequestAssignment.shows v x (SyncGroupRequestAssignment14.val (SyncGroupRequestAssignment14.of v x {})) = true :=
  Shows.all hv (show_string (Fields.Typed.head (h) hv)) <|
    Shows.all hv (show_bytes (Fields.Typed.head (Fields.Typed.tail h) hv)) <|
    rfl

/-- What `SyncGroupRequest` holds after reading the value `x` into `t0`. -/
def SyncGroupRequest.of (v : Int16) (x : Val) (t0 : SyncGroupRequest) : SyncGroupRequest :=
  { GroupId := (x.get "GroupId").toStr,
    GenerationId := (x.get "GenerationId").toInt32,
    MemberId := (x.get "MemberId").toStr,
    GroupInstanceId := if v ≥ 3 then (x.get "GroupInstanceId").toStr else t0.GroupInstanceId,
    Assignments := (x.get "Assignments").toSliceOr (fun y => SyncGroupRequestAssignment14.of v y {}) t0.Assignments }

theorem SyncGroupRequest.decodes {v : Int16} (hv : 0 ≤ v) (x : Val) (h : Protocol.SyncGroupRequest.Valid false v x) (t0 : SyncGroupRequest) :
    Reads (SyncGroupRequest.decode v t0) (Protocol.SyncGroupRequest.wire false v x) (SyncGroupRequest.of v x t0) :=
  Reads.congr (((Step.field (set := fun (t : SyncGroupRequest) x => { t with GroupId := x }) (read_string (Fields.Valid.head (h) hv)))
      |>.andThen (Step.field (set := fun (t : SyncGroupRequest) x => { t with GenerationId := x }) (read_int32 (Fields.Valid.head (Fields.Valid.tail h) hv)))
      |>.andThen (Step.field (set := fun (t : SyncGroupRequest) x => { t with MemberId := x }) (read_string (Fields.Valid.head (Fields.Valid.tail (Fields.Valid.tail h)) hv)))
      |>.andThen (Step.optField (c := v ≥ 3) (set := fun (t : SyncGroupRequest) x => { t with GroupInstanceId := x }) (·.GroupInstanceId) (fun _ => rfl) fun hc => read_string (Fields.Valid.head (Fields.Valid.tail (Fields.Valid.tail (Fields.Valid.tail h))) hc))
      |>.andThen (Step.readStructs (get := fun (t : SyncGroupRequest) => t.Assignments) (set := fun (t : SyncGroupRequest) x => { t with Assignments := x }) (fun y hy => SyncGroupRequestAssignment14.decodes hv y hy {}) (Fields.Valid.head (Fields.Valid.tail (Fields.Valid.tail (Fields.Valid.tail (Fields.Valid.tail h)))) hv)) : Step _ _ _) t0)
    (Writes.eq (fs := Protocol.SyncGroupRequest) (v := v) (x := x) <| Writes.all hv rfl <| Writes.all hv rfl <| Writes.all hv rfl <| Writes.since rfl <| Writes.all hv rfl <| Writes.done).symm rfl

theorem SyncGroupRequest.parses {v : Int16} (hv : 0 ≤ v) (t0 : SyncGroupRequest) :
    Parses (SyncGroupRequest.decode v t0) ((Ty.struct Protocol.SyncGroupRequest).parse v) (fun x => SyncGroupRequest.of v x t0) :=
  FParses.parses (fs := Protocol.SyncGroupRequest)
    (FParses.field hv (set := fun (t : SyncGroupRequest) x => { t with GroupId := x }) par_string <|
    FParses.field hv (set := fun (t : SyncGroupRequest) x => { t with GenerationId := x }) par_int32 <|
    FParses.field hv (set := fun (t : SyncGroupRequest) x => { t with MemberId := x }) par_string <|
    FParses.optField (c := v ≥ 3) Iff.rfl (set := fun (t : SyncGroupRequest) x => { t with GroupInstanceId := x }) (·.GroupInstanceId) (fun _ => rfl) par_string <|
    FParses.structs hv (get := fun (t : SyncGroupRequest) => t.Assignments) (set := fun (t : SyncGroupRequest) x => { t with Assignments := x }) (SyncGroupRequestAssignment14.parses hv {}) <|
    FParses.done)
    (by simp only [SyncGroupRequest.decode, Dec.andThen_assoc, Dec.andThen_nop]) (Fields.distinct_nodup _ (by decide +kernel)) (fun _ _ => rfl) t0

theorem SyncGroupRequest.shown {v : Int16} (hv : 0 ≤ v) (x : Val) (h : Protocol.SyncGroupRequest.Typed v x) :
    Protocol.SyncGroupRequest.shows v x (SyncGroupRequest.val (SyncGroupRequest.of v x {})) = true :=
  Shows.all hv (show_string (Fields.Typed.head (h) hv)) <|
    Shows.all hv (show_int32 (Fields.Typed.head (Fields.Typed.tail h) hv)) <|
    Shows.all hv (show_string (Fields.Typed.head (Fields.Typed.tail (Fields.Typed.tail h)) hv)) <|
    Shows.since (fun s => .str (some s)) rfl (fun hc => show_string (Fields.Typed.head (Fields.Typed.tail (Fields.Typed.tail (Fields.Typed.tail h))) hc)) rfl <|
    Shows.all hv (show_structs (f := SyncGroupRequestAssignment14.val) (g := fun y => SyncGroupRequestAssignment14.of v y {}) (fun y hy => SyncGroupRequestAssignment14.shown hv y hy) (Fields.Typed.head (Fields.Typed.tail (Fields.Typed.tail (Fields.Typed.tail (Fields.Typed.tail h)))) hv)) <|
    rfl

end Kafka.Msg
