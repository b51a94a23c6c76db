import Verif.Protocol.Conform.DescribeLogDirs
/-!
Generated by tools/gen_protocol.py: the DescribeLogDirs request is read as the protocol says.
-/
namespace Kafka.Msg

open Protocol

/-- What `DescribableLogDirTopic35` holds after reading the value `x` into `t0`. -/
def DescribableLogDirTopic35.of (_v : Int16) (x : Val) (_t0 : DescribableLogDirTopic35) : DescribableLogDirTopic35 :=
  { Topic := (x.get "Topic").toStr,
    PartitionIndex := (x.get "PartitionIndex").toSlice Val.toInt32 }

theorem DescribableLogDirTopic35.decodes {v : Int16} (hv : 0 ≤ v) (x : Val) (h : Protocol.DescribableLogDirTopic.Valid false v x) (t0 : DescribableLogDirTopic35) :
    Reads (DescribableLogDirTopic35.decode v t0) (Protocol.DescribableLogDirTopic.wire false v x) (DescribableLogDirTopic35.of v x t0) :=
  Reads.congr (((Step.field (set := fun (t : DescribableLogDirTopic35) x => { t with Topic := x }) (read_string (Fields.Valid.head (h) hv)))
      |>.andThen (Step.field (set := fun (t : DescribableLogDirTopic35) x => { t with PartitionIndex := x }) (read_int32Array (Fields.Valid.head (Fields.Valid.tail h) hv))) : Step _ _ _) t0)
    (Writes.eq (fs := Protocol.DescribableLogDirTopic) (v := v) (x := x) <| Writes.all hv rfl <| Writes.all hv rfl <| Writes.done).symm rfl

theorem DescribableLogDirTopic35.parses {v : Int16} (hv : 0 ≤ v) (t0 : DescribableLogDirTopic35) :
    Parses (DescribableLogDirTopic35.decode v t0) ((Ty.struct Protocol.DescribableLogDirTopic).parse v) (fun x => DescribableLogDirTopic35.of v x t0) :=
  FParses.parses (fs := Protocol.DescribableLogDirTopic)
    (FParses.field hv (set := fun (t : DescribableLogDirTopic35) x => { t with Topic := x }) par_string <|
    FParses.field hv (set := fun (t : DescribableLogDirTopic35) x => { t with PartitionIndex := x }) par_int32Array <|
    FParses.done)
    (by simp only [DescribableLogDirTopic35.decode, Dec.andThen_nop]) (Fields.distinct_nodup _ (by decide +kernel)) (fun _ _ => rfl) t0

theorem DescribableLogDirTopic35.shown {v : Int16} (hv : 0 ≤ v) (x : Val) (h : Protocol.DescribableLogDirTopic.Typed v x) :
    Protocol.DescribableLogDirTopic.shows v x (DescribableLogDirTopic35.val (DescribableLogDirTopic35.of v x {})) = true :=
  Shows.all hv (show_string (Fields.Typed.head (h) hv)) <|
    Shows.all hv (show_int32Array (Fields.Typed.head (Fields.Typed.tail h) hv)) <|
    rfl

/-- What `DescribeLogDirsRequest` holds after reading the value `x` into `t0`. -/
def DescribeLogDirsRequest.of (v : Int16) (x : Val) (t0 : DescribeLogDirsRequest) : DescribeLogDirsRequest :=
  { Topics := (x.get "Topics").toSliceOr (fun y => DescribableLogDirTopic35.of v y {}) t0.Topics }

theorem DescribeLogDirsRequest.decodes {v : Int16} (hv : 0 ≤ v) (x : Val) (h : Protocol.DescribeLogDirsRequest.Valid false v x) (t0 : DescribeLogDirsRequest) :
    Reads (DescribeLogDirsRequest.decode v t0) (Protocol.DescribeLogDirsRequest.wire false v x) (DescribeLogDirsRequest.of v x t0) :=
  Reads.congr (((Step.readStructs (get := fun (t : DescribeLogDirsRequest) => t.Topics) (set := fun (t : DescribeLogDirsRequest) x => { t with Topics := x }) (fun y hy => DescribableLogDirTopic35.decodes hv y hy {}) (Fields.Valid.head (h) hv)) : Step _ _ _) t0)
    (Writes.eq (fs := Protocol.DescribeLogDirsRequest) (v := v) (x := x) <| Writes.all hv rfl <| Writes.done).symm rfl

theorem DescribeLogDirsRequest.parses {v : Int16} (hv : 0 ≤ v) (t0 : DescribeLogDirsRequest) :
    Parses (DescribeLogDirsRequest.decode v t0) ((Ty.struct Protocol.DescribeLogDirsRequest).parse v) (fun x => DescribeLogDirsRequest.of v x t0) :=
  FParses.parses (fs := Protocol.DescribeLogDirsRequest)
    (FParses.structs hv (get := fun (t : DescribeLogDirsRequest) => t.Topics) (set := fun (t : DescribeLogDirsRequest) x => { t with Topics := x }) (DescribableLogDirTopic35.parses hv {}) <|
    FParses.done)
    (by simp only [DescribeLogDirsRequest.decode, Dec.andThen_nop]) (Fields.distinct_nodup _ (by decide +kernel)) (fun _ _ => rfl) t0

theorem DescribeLogDirsRequest.shown {v : Int16} (hv : 0 ≤ v) (x : Val) (h : Protocol.DescribeLogDirsRequest.Typed v x) :
    Protocol.DescribeLogDirsRequest.shows v x (DescribeLogDirsRequest.val (DescribeLogDirsRequest.of v x {})) = true :=
  Shows.all hv (show_structs (f := DescribableLogDirTopic35.val) (g := fun y => DescribableLogDirTopic35.of v y {}) (fun y hy => DescribableLogDirTopic35.shown hv y hy) (Fields.Typed.head (h) hv)) <|
    rfl

end Kafka.Msg
