import Verif.Message.Layout
import Verif.Gen.Model.OffsetDelete
/-!
Generated by tools/gen_messages.py: specification of the OffsetDelete messages.
-/
namespace Kafka.Msg

/-- Wire format of `OffsetDeleteRequestPartition47`. -/
def OffsetDeleteRequestPartition47.wire (_version : Int16) (t : OffsetDeleteRequestPartition47) : List Byte :=
  Wire.int32 t.PartitionIndex

/-- No field has a length prefix. -/
def OffsetDeleteRequestPartition47.Fits (_version : Int16) (_t : OffsetDeleteRequestPartition47) : Prop := True

/-- The value after `t` has been decoded into `t0`. -/
def OffsetDeleteRequestPartition47.seen (_version : Int16) (t _t0 : OffsetDeleteRequestPartition47) : OffsetDeleteRequestPartition47 :=
  { PartitionIndex := t.PartitionIndex }

/-- Nothing can be lost. -/
def OffsetDeleteRequestPartition47.Canon (_version : Int16) (_t : OffsetDeleteRequestPartition47) : Prop := True

/-- The specification of `OffsetDeleteRequestPartition47`. -/
def OffsetDeleteRequestPartition47.layout : Layout OffsetDeleteRequestPartition47.type :=
  { wire := OffsetDeleteRequestPartition47.wire, Fits := OffsetDeleteRequestPartition47.Fits, seen := OffsetDeleteRequestPartition47.seen, Canon := OffsetDeleteRequestPartition47.Canon }

/-- Wire format of `OffsetDeleteRequestTopic47`. -/
def OffsetDeleteRequestTopic47.wire (version : Int16) (t : OffsetDeleteRequestTopic47) : List Byte :=
  Wire.string t.Name ++
  Wire.array (OffsetDeleteRequestPartition47.wire version) t.Partitions

/-- Lengths are representable. -/
structure OffsetDeleteRequestTopic47.Fits (version : Int16) (t : OffsetDeleteRequestTopic47) : Prop where
  Name : FitsString t.Name
  Partitions : FitsAll (OffsetDeleteRequestPartition47.Fits version) t.Partitions

/-- The value after `t` has been decoded into `t0`. -/
def OffsetDeleteRequestTopic47.seen (version : Int16) (t _t0 : OffsetDeleteRequestTopic47) : OffsetDeleteRequestTopic47 :=
  { Name := t.Name,
    Partitions := some (t.Partitions.elems.map fun x => x.seen version {}) }

/-- Nothing in `t` is lost at this version. -/
structure OffsetDeleteRequestTopic47.Canon (version : Int16) (t : OffsetDeleteRequestTopic47) : Prop where
  Partitions : CanonAll (OffsetDeleteRequestPartition47.Canon version) t.Partitions

/-- The specification of `OffsetDeleteRequestTopic47`. -/
def OffsetDeleteRequestTopic47.layout : Layout OffsetDeleteRequestTopic47.type :=
  { wire := OffsetDeleteRequestTopic47.wire, Fits := OffsetDeleteRequestTopic47.Fits, seen := OffsetDeleteRequestTopic47.seen, Canon := OffsetDeleteRequestTopic47.Canon }

/-- Wire format of `OffsetDeleteRequest`. -/
def OffsetDeleteRequest.wire (version : Int16) (t : OffsetDeleteRequest) : List Byte :=
  Wire.string t.GroupId ++
  Wire.array (OffsetDeleteRequestTopic47.wire version) t.Topics

/-- Lengths are representable. -/
structure OffsetDeleteRequest.Fits (version : Int16) (t : OffsetDeleteRequest) : Prop where
  GroupId : FitsString t.GroupId
  Topics : FitsAll (OffsetDeleteRequestTopic47.Fits version) t.Topics

/-- The value after `t` has been decoded into `t0`. -/
def OffsetDeleteRequest.seen (version : Int16) (t _t0 : OffsetDeleteRequest) : OffsetDeleteRequest :=
  { GroupId := t.GroupId,
    Topics := some (t.Topics.elems.map fun x => x.seen version {}) }

/-- Nothing in `t` is lost at this version. -/
structure OffsetDeleteRequest.Canon (version : Int16) (t : OffsetDeleteRequest) : Prop where
  Topics : CanonAll (OffsetDeleteRequestTopic47.Canon version) t.Topics

/-- The specification of `OffsetDeleteRequest`. -/
def OffsetDeleteRequest.layout : Layout OffsetDeleteRequest.type :=
  { wire := OffsetDeleteRequest.wire, Fits := OffsetDeleteRequest.Fits, seen := OffsetDeleteRequest.seen, Canon := OffsetDeleteRequest.Canon }

/-- Wire format of `OffsetDeleteResponsePartition47`. -/
def OffsetDeleteResponsePartition47.wire (_version : Int16) (t : OffsetDeleteResponsePartition47) : List Byte :=
  Wire.int32 t.PartitionIndex ++
  Wire.int16 t.ErrorCode

/-- No field has a length prefix. -/
def OffsetDeleteResponsePartition47.Fits (_version : Int16) (_t : OffsetDeleteResponsePartition47) : Prop := True

/-- The value after `t` has been decoded into `t0`. -/
def OffsetDeleteResponsePartition47.seen (_version : Int16) (t _t0 : OffsetDeleteResponsePartition47) : OffsetDeleteResponsePartition47 :=
  { PartitionIndex := t.PartitionIndex,
    ErrorCode := t.ErrorCode }

/-- Nothing can be lost. -/
def OffsetDeleteResponsePartition47.Canon (_version : Int16) (_t : OffsetDeleteResponsePartition47) : Prop := True

/-- The specification of `OffsetDeleteResponsePartition47`. -/
def OffsetDeleteResponsePartition47.layout : Layout OffsetDeleteResponsePartition47.type :=
  { wire := OffsetDeleteResponsePartition47.wire, Fits := OffsetDeleteResponsePartition47.Fits, seen := OffsetDeleteResponsePartition47.seen, Canon := OffsetDeleteResponsePartition47.Canon }

/-- Wire format of `OffsetDeleteResponseTopic47`. -/
def OffsetDeleteResponseTopic47.wire (version : Int16) (t : OffsetDeleteResponseTopic47) : List Byte :=
  Wire.string t.Name ++
  Wire.array (OffsetDeleteResponsePartition47.wire version) t.Partitions

/-- Lengths are representable. -/
structure OffsetDeleteResponseTopic47.Fits (version : Int16) (t : OffsetDeleteResponseTopic47) : Prop where
  Name : FitsString t.Name
  Partitions : FitsAll (OffsetDeleteResponsePartition47.Fits version) t.Partitions

/-- The value after `t` has been decoded into `t0`. -/
def OffsetDeleteResponseTopic47.seen (version : Int16) (t _t0 : OffsetDeleteResponseTopic47) : OffsetDeleteResponseTopic47 :=
  { Name := t.Name,
    Partitions := some (t.Partitions.elems.map fun x => x.seen version {}) }

/-- Nothing in `t` is lost at this version. -/
structure OffsetDeleteResponseTopic47.Canon (version : Int16) (t : OffsetDeleteResponseTopic47) : Prop where
  Partitions : CanonAll (OffsetDeleteResponsePartition47.Canon version) t.Partitions

/-- The specification of `OffsetDeleteResponseTopic47`. -/
def OffsetDeleteResponseTopic47.layout : Layout OffsetDeleteResponseTopic47.type :=
  { wire := OffsetDeleteResponseTopic47.wire, Fits := OffsetDeleteResponseTopic47.Fits, seen := OffsetDeleteResponseTopic47.seen, Canon := OffsetDeleteResponseTopic47.Canon }

/-- Wire format of `OffsetDeleteResponse`. -/
def OffsetDeleteResponse.wire (version : Int16) (t : OffsetDeleteResponse) : List Byte :=
  Wire.int16 t.ErrorCode ++
  Wire.int32 t.ThrottleTimeMs ++
  Wire.array (OffsetDeleteResponseTopic47.wire version) t.Topics

/-- Lengths are representable. -/
structure OffsetDeleteResponse.Fits (version : Int16) (t : OffsetDeleteResponse) : Prop where
  Topics : FitsAll (OffsetDeleteResponseTopic47.Fits version) t.Topics

/-- The value after `t` has been decoded into `t0`. -/
def OffsetDeleteResponse.seen (version : Int16) (t _t0 : OffsetDeleteResponse) : OffsetDeleteResponse :=
  { ErrorCode := t.ErrorCode,
    ThrottleTimeMs := t.ThrottleTimeMs,
    Topics := some (t.Topics.elems.map fun x => x.seen version {}) }

/-- Nothing in `t` is lost at this version. -/
structure OffsetDeleteResponse.Canon (version : Int16) (t : OffsetDeleteResponse) : Prop where
  Topics : CanonAll (OffsetDeleteResponseTopic47.Canon version) t.Topics

/-- The specification of `OffsetDeleteResponse`. -/
def OffsetDeleteResponse.layout : Layout OffsetDeleteResponse.type :=
  { wire := OffsetDeleteResponse.wire, Fits := OffsetDeleteResponse.Fits, seen := OffsetDeleteResponse.seen, Canon := OffsetDeleteResponse.Canon }

end Kafka.Msg
