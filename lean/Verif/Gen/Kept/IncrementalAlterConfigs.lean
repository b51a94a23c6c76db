import Verif.Message.KeptLemmas
import Verif.Gen.Proof.IncrementalAlterConfigs
/-!
Generated by tools/gen_messages.py: what is in the IncrementalAlterConfigs messages after an error.
-/
set_option linter.unusedVariables false
namespace Kafka.Msg

/-- message/messages.gen.go:10974-10989 `AlterableConfig44.Decode`, with the receiver kept -/
def AlterableConfig44.decodeK (_version : Int16) : KDec AlterableConfig44 :=
    KDec.field Dec.string [] (fun t x => { t with Name := x }) ;|>
    KDec.field Dec.int8 0 (fun t x => { t with ConfigOperation := x }) ;|>
    KDec.field Dec.string [] (fun t x => { t with Value := x })

/-- Where the fields of `AlterableConfig44` end. -/
def AlterableConfig44.ends (_version : Int16) (t : AlterableConfig44) : Nat → Nat :=
  Cut.ends 0 [Wire.string t.Name,
    Wire.int8 t.ConfigOperation,
    Wire.string t.Value]

/-- What is left of `t` if only its first `n` bytes are there. -/
def AlterableConfig44.cut (version : Int16) (n : Nat) (t : AlterableConfig44) : AlterableConfig44 :=
  { Name := Cut.field n (t.ends version 0) t.Name [],
    ConfigOperation := Cut.field n (t.ends version 1) t.ConfigOperation 0,
    Value := Cut.field n (t.ends version 2) t.Value [] }

/-- The same after the first `k` statements of `Decode`. -/
def AlterableConfig44.cutAt (version : Int16) (t : AlterableConfig44) (k n : Nat) : AlterableConfig44 :=
  { Name := upto k 0 (Cut.field n (t.ends version 0) t.Name []) [],
    ConfigOperation := upto k 1 (Cut.field n (t.ends version 1) t.ConfigOperation 0) 0,
    Value := upto k 2 (Cut.field n (t.ends version 2) t.Value []) [] }

/-- The first `k` fields of `y`, and zeros. -/
def AlterableConfig44.first (k : Nat) (y : AlterableConfig44) : AlterableConfig44 :=
  { Name := upto k 0 y.Name [],
    ConfigOperation := upto k 1 y.ConfigOperation 0,
    Value := upto k 2 y.Value [] }

/-- `r` is a beginning of `y`, and zeros. -/
def AlterableConfig44.Part (r y : AlterableConfig44) : Prop :=
  (∃ k, k < 3 ∧ r = y.first k)

/-- `AlterableConfig44` with its receiver kept. -/
def AlterableConfig44.keeps : KeptMsg AlterableConfig44.type := { decode := AlterableConfig44.decodeK, cut := AlterableConfig44.cut, Part := AlterableConfig44.Part }

theorem AlterableConfig44.sameK (version : Int16) : KStep (AlterableConfig44.decodeK version) (AlterableConfig44.decode version) :=
  (KStep.field)
    |>.andThen (KStep.field)
    |>.andThen (KStep.field)
theorem AlterableConfig44.cutsK (version : Int16) (t : AlterableConfig44) (h : t.Fits version) :
    Cuts (AlterableConfig44.decodeK version) 0 (AlterableConfig44.wire version t) (AlterableConfig44.ends version t 2) (AlterableConfig44.cutAt version t 0) (AlterableConfig44.cutAt version t 3) :=
  (.field (reads_string h.Name) (fun _ => rfl) (fun _ => rfl) : Cuts _ 0 _ (AlterableConfig44.ends version t 0) (AlterableConfig44.cutAt version t 0) (AlterableConfig44.cutAt version t 1))
    |>.andThen (.field (reads_int8 t.ConfigOperation) (fun _ => rfl) (fun _ => rfl) : Cuts _ (AlterableConfig44.ends version t 0) _ (AlterableConfig44.ends version t 1) (AlterableConfig44.cutAt version t 1) (AlterableConfig44.cutAt version t 2))
    |>.andThen (.field (reads_string h.Value) (fun _ => rfl) (fun _ => rfl) : Cuts _ (AlterableConfig44.ends version t 1) _ (AlterableConfig44.ends version t 2) (AlterableConfig44.cutAt version t 2) (AlterableConfig44.cutAt version t 3))
theorem AlterableConfig44.partsK (version : Int16) : Parts (AlterableConfig44.decodeK version) (AlterableConfig44.first 0) (AlterableConfig44.first 3) (fun r y => (((r = AlterableConfig44.first 0 y) ∨ (r = AlterableConfig44.first 1 y)) ∨ (r = AlterableConfig44.first 2 y))) :=
  (.field Longer.string (fun _ => rfl) (fun _ _ => rfl) (fun _ _ => rfl) (fun _ => rfl) : Parts (KDec.field Dec.string [] (fun t x => { t with Name := x })) (AlterableConfig44.first 0) (AlterableConfig44.first 1) (fun r y => r = AlterableConfig44.first 0 y))
    |>.andThen (.field Longer.int8 (fun _ => rfl) (fun _ _ => rfl) (fun _ _ => rfl) (fun _ => rfl) : Parts (KDec.field Dec.int8 0 (fun t x => { t with ConfigOperation := x })) (AlterableConfig44.first 1) (AlterableConfig44.first 2) (fun r y => r = AlterableConfig44.first 1 y))
    |>.andThen (.field Longer.string (fun _ => rfl) (fun _ _ => rfl) (fun _ _ => rfl) (fun _ => rfl) : Parts (KDec.field Dec.string [] (fun t x => { t with Value := x })) (AlterableConfig44.first 2) (AlterableConfig44.first 3) (fun r y => r = AlterableConfig44.first 2 y))
theorem AlterableConfig44.filled (version : Int16) : FilledStep 5 32773 (AlterableConfig44.decode version) :=
  ((FilledStep.field .string)
    |>.andThen (FilledStep.field .int8)
    |>.andThen (FilledStep.field .string)).mono (by decide) (by decide)
theorem AlterableConfig44.part_of (r y : AlterableConfig44) (h : (((r = AlterableConfig44.first 0 y) ∨ (r = AlterableConfig44.first 1 y)) ∨ (r = AlterableConfig44.first 2 y))) : AlterableConfig44.Part r y :=
  match h with
    | (.inl (.inl h)) => ⟨0, by decide, h⟩
    | (.inl (.inr h)) => ⟨1, by decide, h⟩
    | (.inr h) => ⟨2, by decide, h⟩
theorem AlterableConfig44.keeps_holds : AlterableConfig44.keeps.Holds AlterableConfig44.layout :=
  KeptMsg.holds AlterableConfig44.lawful AlterableConfig44.sameK (stop := fun v t => AlterableConfig44.ends v t 2) (c := fun v t => AlterableConfig44.cutAt v t 0) (fun _ _ _ => rfl) AlterableConfig44.cutsK (c0 := AlterableConfig44.first 0) rfl AlterableConfig44.partsK AlterableConfig44.part_of AlterableConfig44.filled (by decide) (by decide)

/-- message/messages.gen.go:10925-10949 `AlterConfigsResource44.Decode`, with the receiver kept -/
def AlterConfigsResource44.decodeK (version : Int16) : KDec AlterConfigsResource44 :=
    KDec.field Dec.int8 0 (fun t x => { t with ResourceType := x }) ;|>
    KDec.field Dec.string [] (fun t x => { t with ResourceName := x }) ;|>
    KDec.fieldStructs (AlterableConfig44.decodeK version {}) {} (fun t x => { t with Configs := x })

/-- Where the fields of `AlterConfigsResource44` end. -/
def AlterConfigsResource44.ends (version : Int16) (t : AlterConfigsResource44) : Nat → Nat :=
  Cut.ends 0 [Wire.int8 t.ResourceType,
    Wire.string t.ResourceName,
    Wire.array (AlterableConfig44.wire version) t.Configs]

/-- What is left of `t` if only its first `n` bytes are there. -/
def AlterConfigsResource44.cut (version : Int16) (n : Nat) (t : AlterConfigsResource44) : AlterConfigsResource44 :=
  { ResourceType := Cut.field n (t.ends version 0) t.ResourceType 0,
    ResourceName := Cut.field n (t.ends version 1) t.ResourceName [],
    Configs := Cut.array n (t.ends version 1) (AlterableConfig44.wire version) (fun x => x.seen version {}) {} t.Configs }

/-- The same after the first `k` statements of `Decode`. -/
def AlterConfigsResource44.cutAt (version : Int16) (t : AlterConfigsResource44) (k n : Nat) : AlterConfigsResource44 :=
  { ResourceType := upto k 0 (Cut.field n (t.ends version 0) t.ResourceType 0) 0,
    ResourceName := upto k 1 (Cut.field n (t.ends version 1) t.ResourceName []) [],
    Configs := upto k 2 (Cut.array n (t.ends version 1) (AlterableConfig44.wire version) (fun x => x.seen version {}) {} t.Configs) none }

/-- The first `k` fields of `y`, and zeros. -/
def AlterConfigsResource44.first (k : Nat) (y : AlterConfigsResource44) : AlterConfigsResource44 :=
  { ResourceType := upto k 0 y.ResourceType 0,
    ResourceName := upto k 1 y.ResourceName [],
    Configs := upto k 2 y.Configs none }

/-- `r` is a beginning of `y`, and zeros. -/
def AlterConfigsResource44.Part (r y : AlterConfigsResource44) : Prop :=
  (∃ k, k < 3 ∧ r = y.first k) ∨
    Cut.begun {} (fun t => t.Configs) (fun t x => { t with Configs := x }) (AlterConfigsResource44.first 2) r y

/-- `AlterConfigsResource44` with its receiver kept. -/
def AlterConfigsResource44.keeps : KeptMsg AlterConfigsResource44.type := { decode := AlterConfigsResource44.decodeK, cut := AlterConfigsResource44.cut, Part := AlterConfigsResource44.Part }

theorem AlterConfigsResource44.sameK (version : Int16) : KStep (AlterConfigsResource44.decodeK version) (AlterConfigsResource44.decode version) :=
  (KStep.field)
    |>.andThen (KStep.field)
    |>.andThen (KStep.structs (fun _ => rfl) (AlterableConfig44.sameK version {}))
theorem AlterConfigsResource44.cutsK (version : Int16) (t : AlterConfigsResource44) (h : t.Fits version) :
    Cuts (AlterConfigsResource44.decodeK version) 0 (AlterConfigsResource44.wire version t) (AlterConfigsResource44.ends version t 2) (AlterConfigsResource44.cutAt version t 0) (AlterConfigsResource44.cutAt version t 3) :=
  (.field (reads_int8 t.ResourceType) (fun _ => rfl) (fun _ => rfl) : Cuts _ 0 _ (AlterConfigsResource44.ends version t 0) (AlterConfigsResource44.cutAt version t 0) (AlterConfigsResource44.cutAt version t 1))
    |>.andThen (.field (reads_string h.ResourceName) (fun _ => rfl) (fun _ => rfl) : Cuts _ (AlterConfigsResource44.ends version t 0) _ (AlterConfigsResource44.ends version t 1) (AlterConfigsResource44.cutAt version t 1) (AlterConfigsResource44.cutAt version t 2))
    |>.andThen (.structs (AlterableConfig44.sameK version {}) (fun x hx => AlterableConfig44.reads version x hx {}) h.Configs (fun _ => rfl) (fun _ => rfl) : Cuts _ (AlterConfigsResource44.ends version t 1) _ (AlterConfigsResource44.ends version t 2) (AlterConfigsResource44.cutAt version t 2) (AlterConfigsResource44.cutAt version t 3))
theorem AlterConfigsResource44.partsK (version : Int16) : Parts (AlterConfigsResource44.decodeK version) (AlterConfigsResource44.first 0) (AlterConfigsResource44.first 3) (fun r y => (((r = AlterConfigsResource44.first 0 y) ∨ (r = AlterConfigsResource44.first 1 y)) ∨ (r = AlterConfigsResource44.first 2 y ∨ Cut.begun {} (fun t => t.Configs) (fun t x => { t with Configs := x }) (AlterConfigsResource44.first 2) r y))) :=
  (.field Longer.int8 (fun _ => rfl) (fun _ _ => rfl) (fun _ _ => rfl) (fun _ => rfl) : Parts (KDec.field Dec.int8 0 (fun t x => { t with ResourceType := x })) (AlterConfigsResource44.first 0) (AlterConfigsResource44.first 1) (fun r y => r = AlterConfigsResource44.first 0 y))
    |>.andThen (.field Longer.string (fun _ => rfl) (fun _ _ => rfl) (fun _ _ => rfl) (fun _ => rfl) : Parts (KDec.field Dec.string [] (fun t x => { t with ResourceName := x })) (AlterConfigsResource44.first 1) (AlterConfigsResource44.first 2) (fun r y => r = AlterConfigsResource44.first 1 y))
    |>.andThen (.structs (get := fun (t : AlterConfigsResource44) => t.Configs) ((AlterableConfig44.partsK version).longer {}) (fun _ => rfl) (fun _ => rfl) (fun _ _ => rfl) (fun _ _ => rfl) (fun _ _ => rfl) (fun _ => rfl) (fun _ => rfl) : Parts (KDec.fieldStructs (AlterableConfig44.decodeK version {}) {} (fun t x => { t with Configs := x })) (AlterConfigsResource44.first 2) (AlterConfigsResource44.first 3) (fun r y => r = AlterConfigsResource44.first 2 y ∨ Cut.begun {} (fun t => t.Configs) (fun t x => { t with Configs := x }) (AlterConfigsResource44.first 2) r y))
theorem AlterConfigsResource44.filled (version : Int16) : FilledStep 7 10737451017 (AlterConfigsResource44.decode version) :=
  ((FilledStep.field .int8)
    |>.andThen (FilledStep.field .string)
    |>.andThen (FilledStep.structs (AlterableConfig44.filled version {}))).mono (by decide) (by decide)
theorem AlterConfigsResource44.part_of (r y : AlterConfigsResource44) (h : (((r = AlterConfigsResource44.first 0 y) ∨ (r = AlterConfigsResource44.first 1 y)) ∨ (r = AlterConfigsResource44.first 2 y ∨ Cut.begun {} (fun t => t.Configs) (fun t x => { t with Configs := x }) (AlterConfigsResource44.first 2) r y))) : AlterConfigsResource44.Part r y :=
  match h with
    | (.inl (.inl h)) => .inl ⟨0, by decide, h⟩
    | (.inl (.inr h)) => .inl ⟨1, by decide, h⟩
    | (.inr (.inl h)) => .inl ⟨2, by decide, h⟩
    | (.inr (.inr h)) => (.inr h)
theorem AlterConfigsResource44.keeps_holds : AlterConfigsResource44.keeps.Holds AlterConfigsResource44.layout :=
  KeptMsg.holds AlterConfigsResource44.lawful AlterConfigsResource44.sameK (stop := fun v t => AlterConfigsResource44.ends v t 2) (c := fun v t => AlterConfigsResource44.cutAt v t 0) (fun _ _ _ => rfl) AlterConfigsResource44.cutsK (c0 := AlterConfigsResource44.first 0) rfl AlterConfigsResource44.partsK AlterConfigsResource44.part_of AlterConfigsResource44.filled (by decide) (by decide)

/-- message/messages.gen.go:10872-10892 `IncrementalAlterConfigsRequest.Decode`, with the receiver kept -/
def IncrementalAlterConfigsRequest.decodeK (version : Int16) : KDec IncrementalAlterConfigsRequest :=
    KDec.fieldStructs (AlterConfigsResource44.decodeK version {}) {} (fun t x => { t with Resources := x }) ;|>
    KDec.field Dec.bool false (fun t x => { t with ValidateOnly := x })

/-- Where the fields of `IncrementalAlterConfigsRequest` end. -/
def IncrementalAlterConfigsRequest.ends (version : Int16) (t : IncrementalAlterConfigsRequest) : Nat → Nat :=
  Cut.ends 0 [Wire.array (AlterConfigsResource44.wire version) t.Resources,
    Wire.bool t.ValidateOnly]

/-- What is left of `t` if only its first `n` bytes are there. -/
def IncrementalAlterConfigsRequest.cut (version : Int16) (n : Nat) (t : IncrementalAlterConfigsRequest) : IncrementalAlterConfigsRequest :=
  { Resources := Cut.array n 0 (AlterConfigsResource44.wire version) (fun x => x.seen version {}) {} t.Resources,
    ValidateOnly := Cut.field n (t.ends version 1) t.ValidateOnly false }

/-- The same after the first `k` statements of `Decode`. -/
def IncrementalAlterConfigsRequest.cutAt (version : Int16) (t : IncrementalAlterConfigsRequest) (k n : Nat) : IncrementalAlterConfigsRequest :=
  { Resources := upto k 0 (Cut.array n 0 (AlterConfigsResource44.wire version) (fun x => x.seen version {}) {} t.Resources) none,
    ValidateOnly := upto k 1 (Cut.field n (t.ends version 1) t.ValidateOnly false) false }

/-- The first `k` fields of `y`, and zeros. -/
def IncrementalAlterConfigsRequest.first (k : Nat) (y : IncrementalAlterConfigsRequest) : IncrementalAlterConfigsRequest :=
  { Resources := upto k 0 y.Resources none,
    ValidateOnly := upto k 1 y.ValidateOnly false }

/-- `r` is a beginning of `y`, and zeros. -/
def IncrementalAlterConfigsRequest.Part (r y : IncrementalAlterConfigsRequest) : Prop :=
  (∃ k, k < 2 ∧ r = y.first k) ∨
    Cut.begun {} (fun t => t.Resources) (fun t x => { t with Resources := x }) (IncrementalAlterConfigsRequest.first 0) r y

/-- `IncrementalAlterConfigsRequest` with its receiver kept. -/
def IncrementalAlterConfigsRequest.keeps : KeptMsg IncrementalAlterConfigsRequest.type := { decode := IncrementalAlterConfigsRequest.decodeK, cut := IncrementalAlterConfigsRequest.cut, Part := IncrementalAlterConfigsRequest.Part }

theorem IncrementalAlterConfigsRequest.sameK (version : Int16) : KStep (IncrementalAlterConfigsRequest.decodeK version) (IncrementalAlterConfigsRequest.decode version) :=
  (KStep.structs (fun _ => rfl) (AlterConfigsResource44.sameK version {}))
    |>.andThen (KStep.field)
theorem IncrementalAlterConfigsRequest.cutsK (version : Int16) (t : IncrementalAlterConfigsRequest) (h : t.Fits version) :
    Cuts (IncrementalAlterConfigsRequest.decodeK version) 0 (IncrementalAlterConfigsRequest.wire version t) (IncrementalAlterConfigsRequest.ends version t 1) (IncrementalAlterConfigsRequest.cutAt version t 0) (IncrementalAlterConfigsRequest.cutAt version t 2) :=
  (.structs (AlterConfigsResource44.sameK version {}) (fun x hx => AlterConfigsResource44.reads version x hx {}) h.Resources (fun _ => rfl) (fun _ => rfl) : Cuts _ 0 _ (IncrementalAlterConfigsRequest.ends version t 0) (IncrementalAlterConfigsRequest.cutAt version t 0) (IncrementalAlterConfigsRequest.cutAt version t 1))
    |>.andThen (.field (reads_bool t.ValidateOnly) (fun _ => rfl) (fun _ => rfl) : Cuts _ (IncrementalAlterConfigsRequest.ends version t 0) _ (IncrementalAlterConfigsRequest.ends version t 1) (IncrementalAlterConfigsRequest.cutAt version t 1) (IncrementalAlterConfigsRequest.cutAt version t 2))
theorem IncrementalAlterConfigsRequest.partsK (version : Int16) : Parts (IncrementalAlterConfigsRequest.decodeK version) (IncrementalAlterConfigsRequest.first 0) (IncrementalAlterConfigsRequest.first 2) (fun r y => ((r = IncrementalAlterConfigsRequest.first 0 y ∨ Cut.begun {} (fun t => t.Resources) (fun t x => { t with Resources := x }) (IncrementalAlterConfigsRequest.first 0) r y) ∨ (r = IncrementalAlterConfigsRequest.first 1 y))) :=
  (.structs (get := fun (t : IncrementalAlterConfigsRequest) => t.Resources) ((AlterConfigsResource44.partsK version).longer {}) (fun _ => rfl) (fun _ => rfl) (fun _ _ => rfl) (fun _ _ => rfl) (fun _ _ => rfl) (fun _ => rfl) (fun _ => rfl) : Parts (KDec.fieldStructs (AlterConfigsResource44.decodeK version {}) {} (fun t x => { t with Resources := x })) (IncrementalAlterConfigsRequest.first 0) (IncrementalAlterConfigsRequest.first 1) (fun r y => r = IncrementalAlterConfigsRequest.first 0 y ∨ Cut.begun {} (fun t => t.Resources) (fun t x => { t with Resources := x }) (IncrementalAlterConfigsRequest.first 0) r y))
    |>.andThen (.field Longer.bool (fun _ => rfl) (fun _ _ => rfl) (fun _ _ => rfl) (fun _ => rfl) : Parts (KDec.field Dec.bool false (fun t x => { t with ValidateOnly := x })) (IncrementalAlterConfigsRequest.first 1) (IncrementalAlterConfigsRequest.first 2) (fun r y => r = IncrementalAlterConfigsRequest.first 1 y))
theorem IncrementalAlterConfigsRequest.filled (version : Int16) : FilledStep 5 25769836558 (IncrementalAlterConfigsRequest.decode version) :=
  ((FilledStep.structs (AlterConfigsResource44.filled version {}))
    |>.andThen (FilledStep.field .bool)).mono (by decide) (by decide)
theorem IncrementalAlterConfigsRequest.part_of (r y : IncrementalAlterConfigsRequest) (h : ((r = IncrementalAlterConfigsRequest.first 0 y ∨ Cut.begun {} (fun t => t.Resources) (fun t x => { t with Resources := x }) (IncrementalAlterConfigsRequest.first 0) r y) ∨ (r = IncrementalAlterConfigsRequest.first 1 y))) : IncrementalAlterConfigsRequest.Part r y :=
  match h with
    | (.inl (.inl h)) => .inl ⟨0, by decide, h⟩
    | (.inl (.inr h)) => (.inr h)
    | (.inr h) => .inl ⟨1, by decide, h⟩
theorem IncrementalAlterConfigsRequest.keeps_holds : IncrementalAlterConfigsRequest.keeps.Holds IncrementalAlterConfigsRequest.layout :=
  KeptMsg.holds IncrementalAlterConfigsRequest.lawful IncrementalAlterConfigsRequest.sameK (stop := fun v t => IncrementalAlterConfigsRequest.ends v t 1) (c := fun v t => IncrementalAlterConfigsRequest.cutAt v t 0) (fun _ _ _ => rfl) IncrementalAlterConfigsRequest.cutsK (c0 := IncrementalAlterConfigsRequest.first 0) rfl IncrementalAlterConfigsRequest.partsK IncrementalAlterConfigsRequest.part_of IncrementalAlterConfigsRequest.filled (by decide) (by decide)

/-- message/messages.gen.go:11068-11087 `AlterConfigsResourceResponse44.Decode`, with the receiver kept -/
def AlterConfigsResourceResponse44.decodeK (_version : Int16) : KDec AlterConfigsResourceResponse44 :=
    KDec.field Dec.int16 0 (fun t x => { t with ErrorCode := x }) ;|>
    KDec.field Dec.string [] (fun t x => { t with ErrorMessage := x }) ;|>
    KDec.field Dec.int8 0 (fun t x => { t with ResourceType := x }) ;|>
    KDec.field Dec.string [] (fun t x => { t with ResourceName := x })

/-- Where the fields of `AlterConfigsResourceResponse44` end. -/
def AlterConfigsResourceResponse44.ends (_version : Int16) (t : AlterConfigsResourceResponse44) : Nat → Nat :=
  Cut.ends 0 [Wire.int16 t.ErrorCode,
    Wire.string t.ErrorMessage,
    Wire.int8 t.ResourceType,
    Wire.string t.ResourceName]

/-- What is left of `t` if only its first `n` bytes are there. -/
def AlterConfigsResourceResponse44.cut (version : Int16) (n : Nat) (t : AlterConfigsResourceResponse44) : AlterConfigsResourceResponse44 :=
  { ErrorCode := Cut.field n (t.ends version 0) t.ErrorCode 0,
    ErrorMessage := Cut.field n (t.ends version 1) t.ErrorMessage [],
    ResourceType := Cut.field n (t.ends version 2) t.ResourceType 0,
    ResourceName := Cut.field n (t.ends version 3) t.ResourceName [] }

/-- The same after the first `k` statements of `Decode`. -/
def AlterConfigsResourceResponse44.cutAt (version : Int16) (t : AlterConfigsResourceResponse44) (k n : Nat) : AlterConfigsResourceResponse44 :=
  { ErrorCode := upto k 0 (Cut.field n (t.ends version 0) t.ErrorCode 0) 0,
    ErrorMessage := upto k 1 (Cut.field n (t.ends version 1) t.ErrorMessage []) [],
    ResourceType := upto k 2 (Cut.field n (t.ends version 2) t.ResourceType 0) 0,
    ResourceName := upto k 3 (Cut.field n (t.ends version 3) t.ResourceName []) [] }

/-- The first `k` fields of `y`, and zeros. -/
def AlterConfigsResourceResponse44.first (k : Nat) (y : AlterConfigsResourceResponse44) : AlterConfigsResourceResponse44 :=
  { ErrorCode := upto k 0 y.ErrorCode 0,
    ErrorMessage := upto k 1 y.ErrorMessage [],
    ResourceType := upto k 2 y.ResourceType 0,
    ResourceName := upto k 3 y.ResourceName [] }

/-- `r` is a beginning of `y`, and zeros. -/
def AlterConfigsResourceResponse44.Part (r y : AlterConfigsResourceResponse44) : Prop :=
  (∃ k, k < 4 ∧ r = y.first k)

/-- `AlterConfigsResourceResponse44` with its receiver kept. -/
def AlterConfigsResourceResponse44.keeps : KeptMsg AlterConfigsResourceResponse44.type := { decode := AlterConfigsResourceResponse44.decodeK, cut := AlterConfigsResourceResponse44.cut, Part := AlterConfigsResourceResponse44.Part }

theorem AlterConfigsResourceResponse44.sameK (version : Int16) : KStep (AlterConfigsResourceResponse44.decodeK version) (AlterConfigsResourceResponse44.decode version) :=
  (KStep.field)
    |>.andThen (KStep.field)
    |>.andThen (KStep.field)
    |>.andThen (KStep.field)
theorem AlterConfigsResourceResponse44.cutsK (version : Int16) (t : AlterConfigsResourceResponse44) (h : t.Fits version) :
    Cuts (AlterConfigsResourceResponse44.decodeK version) 0 (AlterConfigsResourceResponse44.wire version t) (AlterConfigsResourceResponse44.ends version t 3) (AlterConfigsResourceResponse44.cutAt version t 0) (AlterConfigsResourceResponse44.cutAt version t 4) :=
  (.field (reads_int16 t.ErrorCode) (fun _ => rfl) (fun _ => rfl) : Cuts _ 0 _ (AlterConfigsResourceResponse44.ends version t 0) (AlterConfigsResourceResponse44.cutAt version t 0) (AlterConfigsResourceResponse44.cutAt version t 1))
    |>.andThen (.field (reads_string h.ErrorMessage) (fun _ => rfl) (fun _ => rfl) : Cuts _ (AlterConfigsResourceResponse44.ends version t 0) _ (AlterConfigsResourceResponse44.ends version t 1) (AlterConfigsResourceResponse44.cutAt version t 1) (AlterConfigsResourceResponse44.cutAt version t 2))
    |>.andThen (.field (reads_int8 t.ResourceType) (fun _ => rfl) (fun _ => rfl) : Cuts _ (AlterConfigsResourceResponse44.ends version t 1) _ (AlterConfigsResourceResponse44.ends version t 2) (AlterConfigsResourceResponse44.cutAt version t 2) (AlterConfigsResourceResponse44.cutAt version t 3))
    |>.andThen (.field (reads_string h.ResourceName) (fun _ => rfl) (fun _ => rfl) : Cuts _ (AlterConfigsResourceResponse44.ends version t 2) _ (AlterConfigsResourceResponse44.ends version t 3) (AlterConfigsResourceResponse44.cutAt version t 3) (AlterConfigsResourceResponse44.cutAt version t 4))
theorem AlterConfigsResourceResponse44.partsK (version : Int16) : Parts (AlterConfigsResourceResponse44.decodeK version) (AlterConfigsResourceResponse44.first 0) (AlterConfigsResourceResponse44.first 4) (fun r y => ((((r = AlterConfigsResourceResponse44.first 0 y) ∨ (r = AlterConfigsResourceResponse44.first 1 y)) ∨ (r = AlterConfigsResourceResponse44.first 2 y)) ∨ (r = AlterConfigsResourceResponse44.first 3 y))) :=
  (.field Longer.int16 (fun _ => rfl) (fun _ _ => rfl) (fun _ _ => rfl) (fun _ => rfl) : Parts (KDec.field Dec.int16 0 (fun t x => { t with ErrorCode := x })) (AlterConfigsResourceResponse44.first 0) (AlterConfigsResourceResponse44.first 1) (fun r y => r = AlterConfigsResourceResponse44.first 0 y))
    |>.andThen (.field Longer.string (fun _ => rfl) (fun _ _ => rfl) (fun _ _ => rfl) (fun _ => rfl) : Parts (KDec.field Dec.string [] (fun t x => { t with ErrorMessage := x })) (AlterConfigsResourceResponse44.first 1) (AlterConfigsResourceResponse44.first 2) (fun r y => r = AlterConfigsResourceResponse44.first 1 y))
    |>.andThen (.field Longer.int8 (fun _ => rfl) (fun _ _ => rfl) (fun _ _ => rfl) (fun _ => rfl) : Parts (KDec.field Dec.int8 0 (fun t x => { t with ResourceType := x })) (AlterConfigsResourceResponse44.first 2) (AlterConfigsResourceResponse44.first 3) (fun r y => r = AlterConfigsResourceResponse44.first 2 y))
    |>.andThen (.field Longer.string (fun _ => rfl) (fun _ _ => rfl) (fun _ _ => rfl) (fun _ => rfl) : Parts (KDec.field Dec.string [] (fun t x => { t with ResourceName := x })) (AlterConfigsResourceResponse44.first 3) (AlterConfigsResourceResponse44.first 4) (fun r y => r = AlterConfigsResourceResponse44.first 3 y))
theorem AlterConfigsResourceResponse44.filled (version : Int16) : FilledStep 7 32773 (AlterConfigsResourceResponse44.decode version) :=
  ((FilledStep.field .int16)
    |>.andThen (FilledStep.field .string)
    |>.andThen (FilledStep.field .int8)
    |>.andThen (FilledStep.field .string)).mono (by decide) (by decide)
theorem AlterConfigsResourceResponse44.part_of (r y : AlterConfigsResourceResponse44) (h : ((((r = AlterConfigsResourceResponse44.first 0 y) ∨ (r = AlterConfigsResourceResponse44.first 1 y)) ∨ (r = AlterConfigsResourceResponse44.first 2 y)) ∨ (r = AlterConfigsResourceResponse44.first 3 y))) : AlterConfigsResourceResponse44.Part r y :=
  match h with
    | (.inl (.inl (.inl h))) => ⟨0, by decide, h⟩
    | (.inl (.inl (.inr h))) => ⟨1, by decide, h⟩
    | (.inl (.inr h)) => ⟨2, by decide, h⟩
    | (.inr h) => ⟨3, by decide, h⟩
theorem AlterConfigsResourceResponse44.keeps_holds : AlterConfigsResourceResponse44.keeps.Holds AlterConfigsResourceResponse44.layout :=
  KeptMsg.holds AlterConfigsResourceResponse44.lawful AlterConfigsResourceResponse44.sameK (stop := fun v t => AlterConfigsResourceResponse44.ends v t 3) (c := fun v t => AlterConfigsResourceResponse44.cutAt v t 0) (fun _ _ _ => rfl) AlterConfigsResourceResponse44.cutsK (c0 := AlterConfigsResourceResponse44.first 0) rfl AlterConfigsResourceResponse44.partsK AlterConfigsResourceResponse44.part_of AlterConfigsResourceResponse44.filled (by decide) (by decide)

/-- message/messages.gen.go:11020-11040 `IncrementalAlterConfigsResponse.Decode`, with the receiver kept -/
def IncrementalAlterConfigsResponse.decodeK (version : Int16) : KDec IncrementalAlterConfigsResponse :=
    KDec.field Dec.int32 0 (fun t x => { t with ThrottleTimeMs := x }) ;|>
    KDec.fieldStructs (AlterConfigsResourceResponse44.decodeK version {}) {} (fun t x => { t with Responses := x })

/-- Where the fields of `IncrementalAlterConfigsResponse` end. -/
def IncrementalAlterConfigsResponse.ends (version : Int16) (t : IncrementalAlterConfigsResponse) : Nat → Nat :=
  Cut.ends 0 [Wire.int32 t.ThrottleTimeMs,
    Wire.array (AlterConfigsResourceResponse44.wire version) t.Responses]

/-- What is left of `t` if only its first `n` bytes are there. -/
def IncrementalAlterConfigsResponse.cut (version : Int16) (n : Nat) (t : IncrementalAlterConfigsResponse) : IncrementalAlterConfigsResponse :=
  { ThrottleTimeMs := Cut.field n (t.ends version 0) t.ThrottleTimeMs 0,
    Responses := Cut.array n (t.ends version 0) (AlterConfigsResourceResponse44.wire version) (fun x => x.seen version {}) {} t.Responses }

/-- The same after the first `k` statements of `Decode`. -/
def IncrementalAlterConfigsResponse.cutAt (version : Int16) (t : IncrementalAlterConfigsResponse) (k n : Nat) : IncrementalAlterConfigsResponse :=
  { ThrottleTimeMs := upto k 0 (Cut.field n (t.ends version 0) t.ThrottleTimeMs 0) 0,
    Responses := upto k 1 (Cut.array n (t.ends version 0) (AlterConfigsResourceResponse44.wire version) (fun x => x.seen version {}) {} t.Responses) none }

/-- The first `k` fields of `y`, and zeros. -/
def IncrementalAlterConfigsResponse.first (k : Nat) (y : IncrementalAlterConfigsResponse) : IncrementalAlterConfigsResponse :=
  { ThrottleTimeMs := upto k 0 y.ThrottleTimeMs 0,
    Responses := upto k 1 y.Responses none }

/-- `r` is a beginning of `y`, and zeros. -/
def IncrementalAlterConfigsResponse.Part (r y : IncrementalAlterConfigsResponse) : Prop :=
  (∃ k, k < 2 ∧ r = y.first k) ∨
    Cut.begun {} (fun t => t.Responses) (fun t x => { t with Responses := x }) (IncrementalAlterConfigsResponse.first 1) r y

/-- `IncrementalAlterConfigsResponse` with its receiver kept. -/
def IncrementalAlterConfigsResponse.keeps : KeptMsg IncrementalAlterConfigsResponse.type := { decode := IncrementalAlterConfigsResponse.decodeK, cut := IncrementalAlterConfigsResponse.cut, Part := IncrementalAlterConfigsResponse.Part }

theorem IncrementalAlterConfigsResponse.sameK (version : Int16) : KStep (IncrementalAlterConfigsResponse.decodeK version) (IncrementalAlterConfigsResponse.decode version) :=
  (KStep.field)
    |>.andThen (KStep.structs (fun _ => rfl) (AlterConfigsResourceResponse44.sameK version {}))
theorem IncrementalAlterConfigsResponse.cutsK (version : Int16) (t : IncrementalAlterConfigsResponse) (h : t.Fits version) :
    Cuts (IncrementalAlterConfigsResponse.decodeK version) 0 (IncrementalAlterConfigsResponse.wire version t) (IncrementalAlterConfigsResponse.ends version t 1) (IncrementalAlterConfigsResponse.cutAt version t 0) (IncrementalAlterConfigsResponse.cutAt version t 2) :=
  (.field (reads_int32 t.ThrottleTimeMs) (fun _ => rfl) (fun _ => rfl) : Cuts _ 0 _ (IncrementalAlterConfigsResponse.ends version t 0) (IncrementalAlterConfigsResponse.cutAt version t 0) (IncrementalAlterConfigsResponse.cutAt version t 1))
    |>.andThen (.structs (AlterConfigsResourceResponse44.sameK version {}) (fun x hx => AlterConfigsResourceResponse44.reads version x hx {}) h.Responses (fun _ => rfl) (fun _ => rfl) : Cuts _ (IncrementalAlterConfigsResponse.ends version t 0) _ (IncrementalAlterConfigsResponse.ends version t 1) (IncrementalAlterConfigsResponse.cutAt version t 1) (IncrementalAlterConfigsResponse.cutAt version t 2))
theorem IncrementalAlterConfigsResponse.partsK (version : Int16) : Parts (IncrementalAlterConfigsResponse.decodeK version) (IncrementalAlterConfigsResponse.first 0) (IncrementalAlterConfigsResponse.first 2) (fun r y => ((r = IncrementalAlterConfigsResponse.first 0 y) ∨ (r = IncrementalAlterConfigsResponse.first 1 y ∨ Cut.begun {} (fun t => t.Responses) (fun t x => { t with Responses := x }) (IncrementalAlterConfigsResponse.first 1) r y))) :=
  (.field Longer.int32 (fun _ => rfl) (fun _ _ => rfl) (fun _ _ => rfl) (fun _ => rfl) : Parts (KDec.field Dec.int32 0 (fun t x => { t with ThrottleTimeMs := x })) (IncrementalAlterConfigsResponse.first 0) (IncrementalAlterConfigsResponse.first 1) (fun r y => r = IncrementalAlterConfigsResponse.first 0 y))
    |>.andThen (.structs (get := fun (t : IncrementalAlterConfigsResponse) => t.Responses) ((AlterConfigsResourceResponse44.partsK version).longer {}) (fun _ => rfl) (fun _ => rfl) (fun _ _ => rfl) (fun _ _ => rfl) (fun _ _ => rfl) (fun _ => rfl) (fun _ => rfl) : Parts (KDec.fieldStructs (AlterConfigsResourceResponse44.decodeK version {}) {} (fun t x => { t with Responses := x })) (IncrementalAlterConfigsResponse.first 1) (IncrementalAlterConfigsResponse.first 2) (fun r y => r = IncrementalAlterConfigsResponse.first 1 y ∨ Cut.begun {} (fun t => t.Responses) (fun t x => { t with Responses := x }) (IncrementalAlterConfigsResponse.first 1) r y))
theorem IncrementalAlterConfigsResponse.filled (version : Int16) : FilledStep 8 15032418313 (IncrementalAlterConfigsResponse.decode version) :=
  ((FilledStep.field .int32)
    |>.andThen (FilledStep.structs (AlterConfigsResourceResponse44.filled version {}))).mono (by decide) (by decide)
theorem IncrementalAlterConfigsResponse.part_of (r y : IncrementalAlterConfigsResponse) (h : ((r = IncrementalAlterConfigsResponse.first 0 y) ∨ (r = IncrementalAlterConfigsResponse.first 1 y ∨ Cut.begun {} (fun t => t.Responses) (fun t x => { t with Responses := x }) (IncrementalAlterConfigsResponse.first 1) r y))) : IncrementalAlterConfigsResponse.Part r y :=
  match h with
    | (.inl h) => .inl ⟨0, by decide, h⟩
    | (.inr (.inl h)) => .inl ⟨1, by decide, h⟩
    | (.inr (.inr h)) => (.inr h)
theorem IncrementalAlterConfigsResponse.keeps_holds : IncrementalAlterConfigsResponse.keeps.Holds IncrementalAlterConfigsResponse.layout :=
  KeptMsg.holds IncrementalAlterConfigsResponse.lawful IncrementalAlterConfigsResponse.sameK (stop := fun v t => IncrementalAlterConfigsResponse.ends v t 1) (c := fun v t => IncrementalAlterConfigsResponse.cutAt v t 0) (fun _ _ _ => rfl) IncrementalAlterConfigsResponse.cutsK (c0 := IncrementalAlterConfigsResponse.first 0) rfl IncrementalAlterConfigsResponse.partsK IncrementalAlterConfigsResponse.part_of IncrementalAlterConfigsResponse.filled (by decide) (by decide)

/-- The structures of the IncrementalAlterConfigs messages. -/
def keptIncrementalAlterConfigs : List (Σ (M : MsgType) (_ : Layout M), KeptMsg M) :=
  [⟨IncrementalAlterConfigsRequest.type, IncrementalAlterConfigsRequest.layout, IncrementalAlterConfigsRequest.keeps⟩,
   ⟨AlterConfigsResource44.type, AlterConfigsResource44.layout, AlterConfigsResource44.keeps⟩,
   ⟨AlterableConfig44.type, AlterableConfig44.layout, AlterableConfig44.keeps⟩,
   ⟨IncrementalAlterConfigsResponse.type, IncrementalAlterConfigsResponse.layout, IncrementalAlterConfigsResponse.keeps⟩,
   ⟨AlterConfigsResourceResponse44.type, AlterConfigsResourceResponse44.layout, AlterConfigsResourceResponse44.keeps⟩]
theorem keptIncrementalAlterConfigs_holds : ∀ p ∈ keptIncrementalAlterConfigs, p.2.2.Holds p.2.1 := by
  unfold keptIncrementalAlterConfigs
  simp only [List.forall_mem_cons]
  exact ⟨IncrementalAlterConfigsRequest.keeps_holds, AlterConfigsResource44.keeps_holds, AlterableConfig44.keeps_holds, IncrementalAlterConfigsResponse.keeps_holds, AlterConfigsResourceResponse44.keeps_holds, fun _ h => absurd h (by simp)⟩

end Kafka.Msg
