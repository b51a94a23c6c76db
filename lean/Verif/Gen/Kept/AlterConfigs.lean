import Verif.Message.KeptLemmas
import Verif.Gen.Proof.AlterConfigs
/-!
Generated by tools/gen_messages.py: what is in the AlterConfigs messages after an error.
-/
set_option linter.unusedVariables false
namespace Kafka.Msg

/-- message/messages.gen.go:8937-8948 `AlterableConfig33.Decode`, with the receiver kept -/
def AlterableConfig33.decodeK (_version : Int16) : KDec AlterableConfig33 :=
    KDec.field Dec.string [] (fun t x => { t with Name := x }) ;|>
    KDec.field Dec.string [] (fun t x => { t with Value := x })

/-- Where the fields of `AlterableConfig33` end. -/
def AlterableConfig33.ends (_version : Int16) (t : AlterableConfig33) : Nat → Nat :=
  Cut.ends 0 [Wire.string t.Name,
    Wire.string t.Value]

/-- What is left of `t` if only its first `n` bytes are there. -/
def AlterableConfig33.cut (version : Int16) (n : Nat) (t : AlterableConfig33) : AlterableConfig33 :=
  { Name := Cut.field n (t.ends version 0) t.Name [],
    Value := Cut.field n (t.ends version 1) t.Value [] }

/-- The same after the first `k` statements of `Decode`. -/
def AlterableConfig33.cutAt (version : Int16) (t : AlterableConfig33) (k n : Nat) : AlterableConfig33 :=
  { Name := upto k 0 (Cut.field n (t.ends version 0) t.Name []) [],
    Value := upto k 1 (Cut.field n (t.ends version 1) t.Value []) [] }

/-- The first `k` fields of `y`, and zeros. -/
def AlterableConfig33.first (k : Nat) (y : AlterableConfig33) : AlterableConfig33 :=
  { Name := upto k 0 y.Name [],
    Value := upto k 1 y.Value [] }

/-- `r` is a beginning of `y`, and zeros. -/
def AlterableConfig33.Part (r y : AlterableConfig33) : Prop :=
  (∃ k, k < 2 ∧ r = y.first k)

/-- `AlterableConfig33` with its receiver kept. -/
def AlterableConfig33.keeps : KeptMsg AlterableConfig33.type := { decode := AlterableConfig33.decodeK, cut := AlterableConfig33.cut, Part := AlterableConfig33.Part }

theorem AlterableConfig33.sameK (version : Int16) : KStep (AlterableConfig33.decodeK version) (AlterableConfig33.decode version) :=
  (KStep.field)
    |>.andThen (KStep.field)
theorem AlterableConfig33.cutsK (version : Int16) (t : AlterableConfig33) (h : t.Fits version) :
    Cuts (AlterableConfig33.decodeK version) 0 (AlterableConfig33.wire version t) (AlterableConfig33.ends version t 1) (AlterableConfig33.cutAt version t 0) (AlterableConfig33.cutAt version t 2) :=
  (.field (reads_string h.Name) (fun _ => rfl) (fun _ => rfl) : Cuts _ 0 _ (AlterableConfig33.ends version t 0) (AlterableConfig33.cutAt version t 0) (AlterableConfig33.cutAt version t 1))
    |>.andThen (.field (reads_string h.Value) (fun _ => rfl) (fun _ => rfl) : Cuts _ (AlterableConfig33.ends version t 0) _ (AlterableConfig33.ends version t 1) (AlterableConfig33.cutAt version t 1) (AlterableConfig33.cutAt version t 2))
theorem AlterableConfig33.partsK (version : Int16) : Parts (AlterableConfig33.decodeK version) (AlterableConfig33.first 0) (AlterableConfig33.first 2) (fun r y => ((r = AlterableConfig33.first 0 y) ∨ (r = AlterableConfig33.first 1 y))) :=
  (.field Longer.string (fun _ => rfl) (fun _ _ => rfl) (fun _ _ => rfl) (fun _ => rfl) : Parts (KDec.field Dec.string [] (fun t x => { t with Name := x })) (AlterableConfig33.first 0) (AlterableConfig33.first 1) (fun r y => r = AlterableConfig33.first 0 y))
    |>.andThen (.field Longer.string (fun _ => rfl) (fun _ _ => rfl) (fun _ _ => rfl) (fun _ => rfl) : Parts (KDec.field Dec.string [] (fun t x => { t with Value := x })) (AlterableConfig33.first 1) (AlterableConfig33.first 2) (fun r y => r = AlterableConfig33.first 1 y))
theorem AlterableConfig33.filled (version : Int16) : FilledStep 4 32772 (AlterableConfig33.decode version) :=
  ((FilledStep.field .string)
    |>.andThen (FilledStep.field .string)).mono (by decide) (by decide)
theorem AlterableConfig33.part_of (r y : AlterableConfig33) (h : ((r = AlterableConfig33.first 0 y) ∨ (r = AlterableConfig33.first 1 y))) : AlterableConfig33.Part r y :=
  match h with
    | (.inl h) => ⟨0, by decide, h⟩
    | (.inr h) => ⟨1, by decide, h⟩
theorem AlterableConfig33.keeps_holds : AlterableConfig33.keeps.Holds AlterableConfig33.layout :=
  KeptMsg.holds AlterableConfig33.lawful AlterableConfig33.sameK (stop := fun v t => AlterableConfig33.ends v t 1) (c := fun v t => AlterableConfig33.cutAt v t 0) (fun _ _ _ => rfl) AlterableConfig33.cutsK (c0 := AlterableConfig33.first 0) rfl AlterableConfig33.partsK AlterableConfig33.part_of AlterableConfig33.filled (by decide) (by decide)

/-- message/messages.gen.go:8891-8915 `AlterConfigsResource33.Decode`, with the receiver kept -/
def AlterConfigsResource33.decodeK (version : Int16) : KDec AlterConfigsResource33 :=
    KDec.field Dec.int8 0 (fun t x => { t with ResourceType := x }) ;|>
    KDec.field Dec.string [] (fun t x => { t with ResourceName := x }) ;|>
    KDec.fieldStructs (AlterableConfig33.decodeK version {}) {} (fun t x => { t with Configs := x })

/-- Where the fields of `AlterConfigsResource33` end. -/
def AlterConfigsResource33.ends (version : Int16) (t : AlterConfigsResource33) : Nat → Nat :=
  Cut.ends 0 [Wire.int8 t.ResourceType,
    Wire.string t.ResourceName,
    Wire.array (AlterableConfig33.wire version) t.Configs]

/-- What is left of `t` if only its first `n` bytes are there. -/
def AlterConfigsResource33.cut (version : Int16) (n : Nat) (t : AlterConfigsResource33) : AlterConfigsResource33 :=
  { ResourceType := Cut.field n (t.ends version 0) t.ResourceType 0,
    ResourceName := Cut.field n (t.ends version 1) t.ResourceName [],
    Configs := Cut.array n (t.ends version 1) (AlterableConfig33.wire version) (fun x => x.seen version {}) {} t.Configs }

/-- The same after the first `k` statements of `Decode`. -/
def AlterConfigsResource33.cutAt (version : Int16) (t : AlterConfigsResource33) (k n : Nat) : AlterConfigsResource33 :=
  { ResourceType := upto k 0 (Cut.field n (t.ends version 0) t.ResourceType 0) 0,
    ResourceName := upto k 1 (Cut.field n (t.ends version 1) t.ResourceName []) [],
    Configs := upto k 2 (Cut.array n (t.ends version 1) (AlterableConfig33.wire version) (fun x => x.seen version {}) {} t.Configs) none }

/-- The first `k` fields of `y`, and zeros. -/
def AlterConfigsResource33.first (k : Nat) (y : AlterConfigsResource33) : AlterConfigsResource33 :=
  { ResourceType := upto k 0 y.ResourceType 0,
    ResourceName := upto k 1 y.ResourceName [],
    Configs := upto k 2 y.Configs none }

/-- `r` is a beginning of `y`, and zeros. -/
def AlterConfigsResource33.Part (r y : AlterConfigsResource33) : Prop :=
  (∃ k, k < 3 ∧ r = y.first k) ∨
    Cut.begun {} (fun t => t.Configs) (fun t x => { t with Configs := x }) (AlterConfigsResource33.first 2) r y

/-- `AlterConfigsResource33` with its receiver kept. -/
def AlterConfigsResource33.keeps : KeptMsg AlterConfigsResource33.type := { decode := AlterConfigsResource33.decodeK, cut := AlterConfigsResource33.cut, Part := AlterConfigsResource33.Part }

theorem AlterConfigsResource33.sameK (version : Int16) : KStep (AlterConfigsResource33.decodeK version) (AlterConfigsResource33.decode version) :=
  (KStep.field)
    |>.andThen (KStep.field)
    |>.andThen (KStep.structs (fun _ => rfl) (AlterableConfig33.sameK version {}))
theorem AlterConfigsResource33.cutsK (version : Int16) (t : AlterConfigsResource33) (h : t.Fits version) :
    Cuts (AlterConfigsResource33.decodeK version) 0 (AlterConfigsResource33.wire version t) (AlterConfigsResource33.ends version t 2) (AlterConfigsResource33.cutAt version t 0) (AlterConfigsResource33.cutAt version t 3) :=
  (.field (reads_int8 t.ResourceType) (fun _ => rfl) (fun _ => rfl) : Cuts _ 0 _ (AlterConfigsResource33.ends version t 0) (AlterConfigsResource33.cutAt version t 0) (AlterConfigsResource33.cutAt version t 1))
    |>.andThen (.field (reads_string h.ResourceName) (fun _ => rfl) (fun _ => rfl) : Cuts _ (AlterConfigsResource33.ends version t 0) _ (AlterConfigsResource33.ends version t 1) (AlterConfigsResource33.cutAt version t 1) (AlterConfigsResource33.cutAt version t 2))
    |>.andThen (.structs (AlterableConfig33.sameK version {}) (fun x hx => AlterableConfig33.reads version x hx {}) h.Configs (fun _ => rfl) (fun _ => rfl) : Cuts _ (AlterConfigsResource33.ends version t 1) _ (AlterConfigsResource33.ends version t 2) (AlterConfigsResource33.cutAt version t 2) (AlterConfigsResource33.cutAt version t 3))
theorem AlterConfigsResource33.partsK (version : Int16) : Parts (AlterConfigsResource33.decodeK version) (AlterConfigsResource33.first 0) (AlterConfigsResource33.first 3) (fun r y => (((r = AlterConfigsResource33.first 0 y) ∨ (r = AlterConfigsResource33.first 1 y)) ∨ (r = AlterConfigsResource33.first 2 y ∨ Cut.begun {} (fun t => t.Configs) (fun t x => { t with Configs := x }) (AlterConfigsResource33.first 2) r y))) :=
  (.field Longer.int8 (fun _ => rfl) (fun _ _ => rfl) (fun _ _ => rfl) (fun _ => rfl) : Parts (KDec.field Dec.int8 0 (fun t x => { t with ResourceType := x })) (AlterConfigsResource33.first 0) (AlterConfigsResource33.first 1) (fun r y => r = AlterConfigsResource33.first 0 y))
    |>.andThen (.field Longer.string (fun _ => rfl) (fun _ _ => rfl) (fun _ _ => rfl) (fun _ => rfl) : Parts (KDec.field Dec.string [] (fun t x => { t with ResourceName := x })) (AlterConfigsResource33.first 1) (AlterConfigsResource33.first 2) (fun r y => r = AlterConfigsResource33.first 1 y))
    |>.andThen (.structs (get := fun (t : AlterConfigsResource33) => t.Configs) ((AlterableConfig33.partsK version).longer {}) (fun _ => rfl) (fun _ => rfl) (fun _ _ => rfl) (fun _ _ => rfl) (fun _ _ => rfl) (fun _ => rfl) (fun _ => rfl) : Parts (KDec.fieldStructs (AlterableConfig33.decodeK version {}) {} (fun t x => { t with Configs := x })) (AlterConfigsResource33.first 2) (AlterConfigsResource33.first 3) (fun r y => r = AlterConfigsResource33.first 2 y ∨ Cut.begun {} (fun t => t.Configs) (fun t x => { t with Configs := x }) (AlterConfigsResource33.first 2) r y))
theorem AlterConfigsResource33.filled (version : Int16) : FilledStep 7 8589967368 (AlterConfigsResource33.decode version) :=
  ((FilledStep.field .int8)
    |>.andThen (FilledStep.field .string)
    |>.andThen (FilledStep.structs (AlterableConfig33.filled version {}))).mono (by decide) (by decide)
theorem AlterConfigsResource33.part_of (r y : AlterConfigsResource33) (h : (((r = AlterConfigsResource33.first 0 y) ∨ (r = AlterConfigsResource33.first 1 y)) ∨ (r = AlterConfigsResource33.first 2 y ∨ Cut.begun {} (fun t => t.Configs) (fun t x => { t with Configs := x }) (AlterConfigsResource33.first 2) r y))) : AlterConfigsResource33.Part r y :=
  match h with
    | (.inl (.inl h)) => .inl ⟨0, by decide, h⟩
    | (.inl (.inr h)) => .inl ⟨1, by decide, h⟩
    | (.inr (.inl h)) => .inl ⟨2, by decide, h⟩
    | (.inr (.inr h)) => (.inr h)
theorem AlterConfigsResource33.keeps_holds : AlterConfigsResource33.keeps.Holds AlterConfigsResource33.layout :=
  KeptMsg.holds AlterConfigsResource33.lawful AlterConfigsResource33.sameK (stop := fun v t => AlterConfigsResource33.ends v t 2) (c := fun v t => AlterConfigsResource33.cutAt v t 0) (fun _ _ _ => rfl) AlterConfigsResource33.cutsK (c0 := AlterConfigsResource33.first 0) rfl AlterConfigsResource33.partsK AlterConfigsResource33.part_of AlterConfigsResource33.filled (by decide) (by decide)

/-- message/messages.gen.go:8838-8858 `AlterConfigsRequest.Decode`, with the receiver kept -/
def AlterConfigsRequest.decodeK (version : Int16) : KDec AlterConfigsRequest :=
    KDec.fieldStructs (AlterConfigsResource33.decodeK version {}) {} (fun t x => { t with Resources := x }) ;|>
    KDec.field Dec.bool false (fun t x => { t with ValidateOnly := x })

/-- Where the fields of `AlterConfigsRequest` end. -/
def AlterConfigsRequest.ends (version : Int16) (t : AlterConfigsRequest) : Nat → Nat :=
  Cut.ends 0 [Wire.array (AlterConfigsResource33.wire version) t.Resources,
    Wire.bool t.ValidateOnly]

/-- What is left of `t` if only its first `n` bytes are there. -/
def AlterConfigsRequest.cut (version : Int16) (n : Nat) (t : AlterConfigsRequest) : AlterConfigsRequest :=
  { Resources := Cut.array n 0 (AlterConfigsResource33.wire version) (fun x => x.seen version {}) {} t.Resources,
    ValidateOnly := Cut.field n (t.ends version 1) t.ValidateOnly false }

/-- The same after the first `k` statements of `Decode`. -/
def AlterConfigsRequest.cutAt (version : Int16) (t : AlterConfigsRequest) (k n : Nat) : AlterConfigsRequest :=
  { Resources := upto k 0 (Cut.array n 0 (AlterConfigsResource33.wire version) (fun x => x.seen version {}) {} t.Resources) none,
    ValidateOnly := upto k 1 (Cut.field n (t.ends version 1) t.ValidateOnly false) false }

/-- The first `k` fields of `y`, and zeros. -/
def AlterConfigsRequest.first (k : Nat) (y : AlterConfigsRequest) : AlterConfigsRequest :=
  { Resources := upto k 0 y.Resources none,
    ValidateOnly := upto k 1 y.ValidateOnly false }

/-- `r` is a beginning of `y`, and zeros. -/
def AlterConfigsRequest.Part (r y : AlterConfigsRequest) : Prop :=
  (∃ k, k < 2 ∧ r = y.first k) ∨
    Cut.begun {} (fun t => t.Resources) (fun t x => { t with Resources := x }) (AlterConfigsRequest.first 0) r y

/-- `AlterConfigsRequest` with its receiver kept. -/
def AlterConfigsRequest.keeps : KeptMsg AlterConfigsRequest.type := { decode := AlterConfigsRequest.decodeK, cut := AlterConfigsRequest.cut, Part := AlterConfigsRequest.Part }

theorem AlterConfigsRequest.sameK (version : Int16) : KStep (AlterConfigsRequest.decodeK version) (AlterConfigsRequest.decode version) :=
  (KStep.structs (fun _ => rfl) (AlterConfigsResource33.sameK version {}))
    |>.andThen (KStep.field)
theorem AlterConfigsRequest.cutsK (version : Int16) (t : AlterConfigsRequest) (h : t.Fits version) :
    Cuts (AlterConfigsRequest.decodeK version) 0 (AlterConfigsRequest.wire version t) (AlterConfigsRequest.ends version t 1) (AlterConfigsRequest.cutAt version t 0) (AlterConfigsRequest.cutAt version t 2) :=
  (.structs (AlterConfigsResource33.sameK version {}) (fun x hx => AlterConfigsResource33.reads version x hx {}) h.Resources (fun _ => rfl) (fun _ => rfl) : Cuts _ 0 _ (AlterConfigsRequest.ends version t 0) (AlterConfigsRequest.cutAt version t 0) (AlterConfigsRequest.cutAt version t 1))
    |>.andThen (.field (reads_bool t.ValidateOnly) (fun _ => rfl) (fun _ => rfl) : Cuts _ (AlterConfigsRequest.ends version t 0) _ (AlterConfigsRequest.ends version t 1) (AlterConfigsRequest.cutAt version t 1) (AlterConfigsRequest.cutAt version t 2))
theorem AlterConfigsRequest.partsK (version : Int16) : Parts (AlterConfigsRequest.decodeK version) (AlterConfigsRequest.first 0) (AlterConfigsRequest.first 2) (fun r y => ((r = AlterConfigsRequest.first 0 y ∨ Cut.begun {} (fun t => t.Resources) (fun t x => { t with Resources := x }) (AlterConfigsRequest.first 0) r y) ∨ (r = AlterConfigsRequest.first 1 y))) :=
  (.structs (get := fun (t : AlterConfigsRequest) => t.Resources) ((AlterConfigsResource33.partsK version).longer {}) (fun _ => rfl) (fun _ => rfl) (fun _ _ => rfl) (fun _ _ => rfl) (fun _ _ => rfl) (fun _ => rfl) (fun _ => rfl) : Parts (KDec.fieldStructs (AlterConfigsResource33.decodeK version {}) {} (fun t x => { t with Resources := x })) (AlterConfigsRequest.first 0) (AlterConfigsRequest.first 1) (fun r y => r = AlterConfigsRequest.first 0 y ∨ Cut.begun {} (fun t => t.Resources) (fun t x => { t with Resources := x }) (AlterConfigsRequest.first 0) r y))
    |>.andThen (.field Longer.bool (fun _ => rfl) (fun _ _ => rfl) (fun _ _ => rfl) (fun _ => rfl) : Parts (KDec.field Dec.bool false (fun t x => { t with ValidateOnly := x })) (AlterConfigsRequest.first 1) (AlterConfigsRequest.first 2) (fun r y => r = AlterConfigsRequest.first 1 y))
theorem AlterConfigsRequest.filled (version : Int16) : FilledStep 5 23622352909 (AlterConfigsRequest.decode version) :=
  ((FilledStep.structs (AlterConfigsResource33.filled version {}))
    |>.andThen (FilledStep.field .bool)).mono (by decide) (by decide)
theorem AlterConfigsRequest.part_of (r y : AlterConfigsRequest) (h : ((r = AlterConfigsRequest.first 0 y ∨ Cut.begun {} (fun t => t.Resources) (fun t x => { t with Resources := x }) (AlterConfigsRequest.first 0) r y) ∨ (r = AlterConfigsRequest.first 1 y))) : AlterConfigsRequest.Part r y :=
  match h with
    | (.inl (.inl h)) => .inl ⟨0, by decide, h⟩
    | (.inl (.inr h)) => (.inr h)
    | (.inr h) => .inl ⟨1, by decide, h⟩
theorem AlterConfigsRequest.keeps_holds : AlterConfigsRequest.keeps.Holds AlterConfigsRequest.layout :=
  KeptMsg.holds AlterConfigsRequest.lawful AlterConfigsRequest.sameK (stop := fun v t => AlterConfigsRequest.ends v t 1) (c := fun v t => AlterConfigsRequest.cutAt v t 0) (fun _ _ _ => rfl) AlterConfigsRequest.cutsK (c0 := AlterConfigsRequest.first 0) rfl AlterConfigsRequest.partsK AlterConfigsRequest.part_of AlterConfigsRequest.filled (by decide) (by decide)

/-- message/messages.gen.go:9027-9046 `AlterConfigsResourceResponse33.Decode`, with the receiver kept -/
def AlterConfigsResourceResponse33.decodeK (_version : Int16) : KDec AlterConfigsResourceResponse33 :=
    KDec.field Dec.int16 0 (fun t x => { t with ErrorCode := x }) ;|>
    KDec.field Dec.string [] (fun t x => { t with ErrorMessage := x }) ;|>
    KDec.field Dec.int8 0 (fun t x => { t with ResourceType := x }) ;|>
    KDec.field Dec.string [] (fun t x => { t with ResourceName := x })

/-- Where the fields of `AlterConfigsResourceResponse33` end. -/
def AlterConfigsResourceResponse33.ends (_version : Int16) (t : AlterConfigsResourceResponse33) : Nat → Nat :=
  Cut.ends 0 [Wire.int16 t.ErrorCode,
    Wire.string t.ErrorMessage,
    Wire.int8 t.ResourceType,
    Wire.string t.ResourceName]

/-- What is left of `t` if only its first `n` bytes are there. -/
def AlterConfigsResourceResponse33.cut (version : Int16) (n : Nat) (t : AlterConfigsResourceResponse33) : AlterConfigsResourceResponse33 :=
  { ErrorCode := Cut.field n (t.ends version 0) t.ErrorCode 0,
    ErrorMessage := Cut.field n (t.ends version 1) t.ErrorMessage [],
    ResourceType := Cut.field n (t.ends version 2) t.ResourceType 0,
    ResourceName := Cut.field n (t.ends version 3) t.ResourceName [] }

/-- The same after the first `k` statements of `Decode`. -/
def AlterConfigsResourceResponse33.cutAt (version : Int16) (t : AlterConfigsResourceResponse33) (k n : Nat) : AlterConfigsResourceResponse33 :=
  { ErrorCode := upto k 0 (Cut.field n (t.ends version 0) t.ErrorCode 0) 0,
    ErrorMessage := upto k 1 (Cut.field n (t.ends version 1) t.ErrorMessage []) [],
    ResourceType := upto k 2 (Cut.field n (t.ends version 2) t.ResourceType 0) 0,
    ResourceName := upto k 3 (Cut.field n (t.ends version 3) t.ResourceName []) [] }

/-- The first `k` fields of `y`, and zeros. -/
def AlterConfigsResourceResponse33.first (k : Nat) (y : AlterConfigsResourceResponse33) : AlterConfigsResourceResponse33 :=
  { ErrorCode := upto k 0 y.ErrorCode 0,
    ErrorMessage := upto k 1 y.ErrorMessage [],
    ResourceType := upto k 2 y.ResourceType 0,
    ResourceName := upto k 3 y.ResourceName [] }

/-- `r` is a beginning of `y`, and zeros. -/
def AlterConfigsResourceResponse33.Part (r y : AlterConfigsResourceResponse33) : Prop :=
  (∃ k, k < 4 ∧ r = y.first k)

/-- `AlterConfigsResourceResponse33` with its receiver kept. -/
def AlterConfigsResourceResponse33.keeps : KeptMsg AlterConfigsResourceResponse33.type := { decode := AlterConfigsResourceResponse33.decodeK, cut := AlterConfigsResourceResponse33.cut, Part := AlterConfigsResourceResponse33.Part }

theorem AlterConfigsResourceResponse33.sameK (version : Int16) : KStep (AlterConfigsResourceResponse33.decodeK version) (AlterConfigsResourceResponse33.decode version) :=
  (KStep.field)
    |>.andThen (KStep.field)
    |>.andThen (KStep.field)
    |>.andThen (KStep.field)
theorem AlterConfigsResourceResponse33.cutsK (version : Int16) (t : AlterConfigsResourceResponse33) (h : t.Fits version) :
    Cuts (AlterConfigsResourceResponse33.decodeK version) 0 (AlterConfigsResourceResponse33.wire version t) (AlterConfigsResourceResponse33.ends version t 3) (AlterConfigsResourceResponse33.cutAt version t 0) (AlterConfigsResourceResponse33.cutAt version t 4) :=
  (.field (reads_int16 t.ErrorCode) (fun _ => rfl) (fun _ => rfl) : Cuts _ 0 _ (AlterConfigsResourceResponse33.ends version t 0) (AlterConfigsResourceResponse33.cutAt version t 0) (AlterConfigsResourceResponse33.cutAt version t 1))
    |>.andThen (.field (reads_string h.ErrorMessage) (fun _ => rfl) (fun _ => rfl) : Cuts _ (AlterConfigsResourceResponse33.ends version t 0) _ (AlterConfigsResourceResponse33.ends version t 1) (AlterConfigsResourceResponse33.cutAt version t 1) (AlterConfigsResourceResponse33.cutAt version t 2))
    |>.andThen (.field (reads_int8 t.ResourceType) (fun _ => rfl) (fun _ => rfl) : Cuts _ (AlterConfigsResourceResponse33.ends version t 1) _ (AlterConfigsResourceResponse33.ends version t 2) (AlterConfigsResourceResponse33.cutAt version t 2) (AlterConfigsResourceResponse33.cutAt version t 3))
    |>.andThen (.field (reads_string h.ResourceName) (fun _ => rfl) (fun _ => rfl) : Cuts _ (AlterConfigsResourceResponse33.ends version t 2) _ (AlterConfigsResourceResponse33.ends version t 3) (AlterConfigsResourceResponse33.cutAt version t 3) (AlterConfigsResourceResponse33.cutAt version t 4))
theorem AlterConfigsResourceResponse33.partsK (version : Int16) : Parts (AlterConfigsResourceResponse33.decodeK version) (AlterConfigsResourceResponse33.first 0) (AlterConfigsResourceResponse33.first 4) (fun r y => ((((r = AlterConfigsResourceResponse33.first 0 y) ∨ (r = AlterConfigsResourceResponse33.first 1 y)) ∨ (r = AlterConfigsResourceResponse33.first 2 y)) ∨ (r = AlterConfigsResourceResponse33.first 3 y))) :=
  (.field Longer.int16 (fun _ => rfl) (fun _ _ => rfl) (fun _ _ => rfl) (fun _ => rfl) : Parts (KDec.field Dec.int16 0 (fun t x => { t with ErrorCode := x })) (AlterConfigsResourceResponse33.first 0) (AlterConfigsResourceResponse33.first 1) (fun r y => r = AlterConfigsResourceResponse33.first 0 y))
    |>.andThen (.field Longer.string (fun _ => rfl) (fun _ _ => rfl) (fun _ _ => rfl) (fun _ => rfl) : Parts (KDec.field Dec.string [] (fun t x => { t with ErrorMessage := x })) (AlterConfigsResourceResponse33.first 1) (AlterConfigsResourceResponse33.first 2) (fun r y => r = AlterConfigsResourceResponse33.first 1 y))
    |>.andThen (.field Longer.int8 (fun _ => rfl) (fun _ _ => rfl) (fun _ _ => rfl) (fun _ => rfl) : Parts (KDec.field Dec.int8 0 (fun t x => { t with ResourceType := x })) (AlterConfigsResourceResponse33.first 2) (AlterConfigsResourceResponse33.first 3) (fun r y => r = AlterConfigsResourceResponse33.first 2 y))
    |>.andThen (.field Longer.string (fun _ => rfl) (fun _ _ => rfl) (fun _ _ => rfl) (fun _ => rfl) : Parts (KDec.field Dec.string [] (fun t x => { t with ResourceName := x })) (AlterConfigsResourceResponse33.first 3) (AlterConfigsResourceResponse33.first 4) (fun r y => r = AlterConfigsResourceResponse33.first 3 y))
theorem AlterConfigsResourceResponse33.filled (version : Int16) : FilledStep 7 32773 (AlterConfigsResourceResponse33.decode version) :=
  ((FilledStep.field .int16)
    |>.andThen (FilledStep.field .string)
    |>.andThen (FilledStep.field .int8)
    |>.andThen (FilledStep.field .string)).mono (by decide) (by decide)
theorem AlterConfigsResourceResponse33.part_of (r y : AlterConfigsResourceResponse33) (h : ((((r = AlterConfigsResourceResponse33.first 0 y) ∨ (r = AlterConfigsResourceResponse33.first 1 y)) ∨ (r = AlterConfigsResourceResponse33.first 2 y)) ∨ (r = AlterConfigsResourceResponse33.first 3 y))) : AlterConfigsResourceResponse33.Part r y :=
  match h with
    | (.inl (.inl (.inl h))) => ⟨0, by decide, h⟩
    | (.inl (.inl (.inr h))) => ⟨1, by decide, h⟩
    | (.inl (.inr h)) => ⟨2, by decide, h⟩
    | (.inr h) => ⟨3, by decide, h⟩
theorem AlterConfigsResourceResponse33.keeps_holds : AlterConfigsResourceResponse33.keeps.Holds AlterConfigsResourceResponse33.layout :=
  KeptMsg.holds AlterConfigsResourceResponse33.lawful AlterConfigsResourceResponse33.sameK (stop := fun v t => AlterConfigsResourceResponse33.ends v t 3) (c := fun v t => AlterConfigsResourceResponse33.cutAt v t 0) (fun _ _ _ => rfl) AlterConfigsResourceResponse33.cutsK (c0 := AlterConfigsResourceResponse33.first 0) rfl AlterConfigsResourceResponse33.partsK AlterConfigsResourceResponse33.part_of AlterConfigsResourceResponse33.filled (by decide) (by decide)

/-- message/messages.gen.go:8979-8999 `AlterConfigsResponse.Decode`, with the receiver kept -/
def AlterConfigsResponse.decodeK (version : Int16) : KDec AlterConfigsResponse :=
    KDec.field Dec.int32 0 (fun t x => { t with ThrottleTimeMs := x }) ;|>
    KDec.fieldStructs (AlterConfigsResourceResponse33.decodeK version {}) {} (fun t x => { t with Responses := x })

/-- Where the fields of `AlterConfigsResponse` end. -/
def AlterConfigsResponse.ends (version : Int16) (t : AlterConfigsResponse) : Nat → Nat :=
  Cut.ends 0 [Wire.int32 t.ThrottleTimeMs,
    Wire.array (AlterConfigsResourceResponse33.wire version) t.Responses]

/-- What is left of `t` if only its first `n` bytes are there. -/
def AlterConfigsResponse.cut (version : Int16) (n : Nat) (t : AlterConfigsResponse) : AlterConfigsResponse :=
  { ThrottleTimeMs := Cut.field n (t.ends version 0) t.ThrottleTimeMs 0,
    Responses := Cut.array n (t.ends version 0) (AlterConfigsResourceResponse33.wire version) (fun x => x.seen version {}) {} t.Responses }

/-- The same after the first `k` statements of `Decode`. -/
def AlterConfigsResponse.cutAt (version : Int16) (t : AlterConfigsResponse) (k n : Nat) : AlterConfigsResponse :=
  { ThrottleTimeMs := upto k 0 (Cut.field n (t.ends version 0) t.ThrottleTimeMs 0) 0,
    Responses := upto k 1 (Cut.array n (t.ends version 0) (AlterConfigsResourceResponse33.wire version) (fun x => x.seen version {}) {} t.Responses) none }

/-- The first `k` fields of `y`, and zeros. -/
def AlterConfigsResponse.first (k : Nat) (y : AlterConfigsResponse) : AlterConfigsResponse :=
  { ThrottleTimeMs := upto k 0 y.ThrottleTimeMs 0,
    Responses := upto k 1 y.Responses none }

/-- `r` is a beginning of `y`, and zeros. -/
def AlterConfigsResponse.Part (r y : AlterConfigsResponse) : Prop :=
  (∃ k, k < 2 ∧ r = y.first k) ∨
    Cut.begun {} (fun t => t.Responses) (fun t x => { t with Responses := x }) (AlterConfigsResponse.first 1) r y

/-- `AlterConfigsResponse` with its receiver kept. -/
def AlterConfigsResponse.keeps : KeptMsg AlterConfigsResponse.type := { decode := AlterConfigsResponse.decodeK, cut := AlterConfigsResponse.cut, Part := AlterConfigsResponse.Part }

theorem AlterConfigsResponse.sameK (version : Int16) : KStep (AlterConfigsResponse.decodeK version) (AlterConfigsResponse.decode version) :=
  (KStep.field)
    |>.andThen (KStep.structs (fun _ => rfl) (AlterConfigsResourceResponse33.sameK version {}))
theorem AlterConfigsResponse.cutsK (version : Int16) (t : AlterConfigsResponse) (h : t.Fits version) :
    Cuts (AlterConfigsResponse.decodeK version) 0 (AlterConfigsResponse.wire version t) (AlterConfigsResponse.ends version t 1) (AlterConfigsResponse.cutAt version t 0) (AlterConfigsResponse.cutAt version t 2) :=
  (.field (reads_int32 t.ThrottleTimeMs) (fun _ => rfl) (fun _ => rfl) : Cuts _ 0 _ (AlterConfigsResponse.ends version t 0) (AlterConfigsResponse.cutAt version t 0) (AlterConfigsResponse.cutAt version t 1))
    |>.andThen (.structs (AlterConfigsResourceResponse33.sameK version {}) (fun x hx => AlterConfigsResourceResponse33.reads version x hx {}) h.Responses (fun _ => rfl) (fun _ => rfl) : Cuts _ (AlterConfigsResponse.ends version t 0) _ (AlterConfigsResponse.ends version t 1) (AlterConfigsResponse.cutAt version t 1) (AlterConfigsResponse.cutAt version t 2))
theorem AlterConfigsResponse.partsK (version : Int16) : Parts (AlterConfigsResponse.decodeK version) (AlterConfigsResponse.first 0) (AlterConfigsResponse.first 2) (fun r y => ((r = AlterConfigsResponse.first 0 y) ∨ (r = AlterConfigsResponse.first 1 y ∨ Cut.begun {} (fun t => t.Responses) (fun t x => { t with Responses := x }) (AlterConfigsResponse.first 1) r y))) :=
  (.field Longer.int32 (fun _ => rfl) (fun _ _ => rfl) (fun _ _ => rfl) (fun _ => rfl) : Parts (KDec.field Dec.int32 0 (fun t x => { t with ThrottleTimeMs := x })) (AlterConfigsResponse.first 0) (AlterConfigsResponse.first 1) (fun r y => r = AlterConfigsResponse.first 0 y))
    |>.andThen (.structs (get := fun (t : AlterConfigsResponse) => t.Responses) ((AlterConfigsResourceResponse33.partsK version).longer {}) (fun _ => rfl) (fun _ => rfl) (fun _ _ => rfl) (fun _ _ => rfl) (fun _ _ => rfl) (fun _ => rfl) (fun _ => rfl) : Parts (KDec.fieldStructs (AlterConfigsResourceResponse33.decodeK version {}) {} (fun t x => { t with Responses := x })) (AlterConfigsResponse.first 1) (AlterConfigsResponse.first 2) (fun r y => r = AlterConfigsResponse.first 1 y ∨ Cut.begun {} (fun t => t.Responses) (fun t x => { t with Responses := x }) (AlterConfigsResponse.first 1) r y))
theorem AlterConfigsResponse.filled (version : Int16) : FilledStep 8 15032418313 (AlterConfigsResponse.decode version) :=
  ((FilledStep.field .int32)
    |>.andThen (FilledStep.structs (AlterConfigsResourceResponse33.filled version {}))).mono (by decide) (by decide)
theorem AlterConfigsResponse.part_of (r y : AlterConfigsResponse) (h : ((r = AlterConfigsResponse.first 0 y) ∨ (r = AlterConfigsResponse.first 1 y ∨ Cut.begun {} (fun t => t.Responses) (fun t x => { t with Responses := x }) (AlterConfigsResponse.first 1) r y))) : AlterConfigsResponse.Part r y :=
  match h with
    | (.inl h) => .inl ⟨0, by decide, h⟩
    | (.inr (.inl h)) => .inl ⟨1, by decide, h⟩
    | (.inr (.inr h)) => (.inr h)
theorem AlterConfigsResponse.keeps_holds : AlterConfigsResponse.keeps.Holds AlterConfigsResponse.layout :=
  KeptMsg.holds AlterConfigsResponse.lawful AlterConfigsResponse.sameK (stop := fun v t => AlterConfigsResponse.ends v t 1) (c := fun v t => AlterConfigsResponse.cutAt v t 0) (fun _ _ _ => rfl) AlterConfigsResponse.cutsK (c0 := AlterConfigsResponse.first 0) rfl AlterConfigsResponse.partsK AlterConfigsResponse.part_of AlterConfigsResponse.filled (by decide) (by decide)

/-- The structures of the AlterConfigs messages. -/
def keptAlterConfigs : List (Σ (M : MsgType) (_ : Layout M), KeptMsg M) :=
  [⟨AlterConfigsRequest.type, AlterConfigsRequest.layout, AlterConfigsRequest.keeps⟩,
   ⟨AlterConfigsResource33.type, AlterConfigsResource33.layout, AlterConfigsResource33.keeps⟩,
   ⟨AlterableConfig33.type, AlterableConfig33.layout, AlterableConfig33.keeps⟩,
   ⟨AlterConfigsResponse.type, AlterConfigsResponse.layout, AlterConfigsResponse.keeps⟩,
   ⟨AlterConfigsResourceResponse33.type, AlterConfigsResourceResponse33.layout, AlterConfigsResourceResponse33.keeps⟩]
theorem keptAlterConfigs_holds : ∀ p ∈ keptAlterConfigs, p.2.2.Holds p.2.1 := by
  unfold keptAlterConfigs
  simp only [List.forall_mem_cons]
  exact ⟨AlterConfigsRequest.keeps_holds, AlterConfigsResource33.keeps_holds, AlterableConfig33.keeps_holds, AlterConfigsResponse.keeps_holds, AlterConfigsResourceResponse33.keeps_holds, fun _ h => absurd h (by simp)⟩

end Kafka.Msg
