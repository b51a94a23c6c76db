import Verif.Message.KeptLemmas
import Verif.Gen.Proof.DescribeConfigs
/-!
Generated by tools/gen_messages.py: what is in the DescribeConfigs messages after an error.
-/
set_option linter.unusedVariables false
namespace Kafka.Msg

/-- message/messages.gen.go:8509-8524 `DescribeConfigsResource32.Decode`, with the receiver kept -/
def DescribeConfigsResource32.decodeK (_version : Int16) : KDec DescribeConfigsResource32 :=
    KDec.field Dec.int8 0 (fun t x => { t with ResourceType := x }) ;|>
    KDec.field Dec.string [] (fun t x => { t with ResourceName := x }) ;|>
    KDec.field Dec.stringArray none (fun t x => { t with ConfigurationKeys := x })

/-- Where the fields of `DescribeConfigsResource32` end. -/
def DescribeConfigsResource32.ends (_version : Int16) (t : DescribeConfigsResource32) : Nat → Nat :=
  Cut.ends 0 [Wire.int8 t.ResourceType,
    Wire.string t.ResourceName,
    Wire.stringArray t.ConfigurationKeys]

/-- What is left of `t` if only its first `n` bytes are there. -/
def DescribeConfigsResource32.cut (version : Int16) (n : Nat) (t : DescribeConfigsResource32) : DescribeConfigsResource32 :=
  { ResourceType := Cut.field n (t.ends version 0) t.ResourceType 0,
    ResourceName := Cut.field n (t.ends version 1) t.ResourceName [],
    ConfigurationKeys := Cut.field n (t.ends version 2) t.ConfigurationKeys none }

/-- The same after the first `k` statements of `Decode`. -/
def DescribeConfigsResource32.cutAt (version : Int16) (t : DescribeConfigsResource32) (k n : Nat) : DescribeConfigsResource32 :=
  { ResourceType := upto k 0 (Cut.field n (t.ends version 0) t.ResourceType 0) 0,
    ResourceName := upto k 1 (Cut.field n (t.ends version 1) t.ResourceName []) [],
    ConfigurationKeys := upto k 2 (Cut.field n (t.ends version 2) t.ConfigurationKeys none) none }

/-- The first `k` fields of `y`, and zeros. -/
def DescribeConfigsResource32.first (k : Nat) (y : DescribeConfigsResource32) : DescribeConfigsResource32 :=
  { ResourceType := upto k 0 y.ResourceType 0,
    ResourceName := upto k 1 y.ResourceName [],
    ConfigurationKeys := upto k 2 y.ConfigurationKeys none }

/-- `r` is a beginning of `y`, and zeros. -/
def DescribeConfigsResource32.Part (r y : DescribeConfigsResource32) : Prop :=
  (∃ k, k < 3 ∧ r = y.first k)

/-- `DescribeConfigsResource32` with its receiver kept. -/
def DescribeConfigsResource32.keeps : KeptMsg DescribeConfigsResource32.type := { decode := DescribeConfigsResource32.decodeK, cut := DescribeConfigsResource32.cut, Part := DescribeConfigsResource32.Part }

theorem DescribeConfigsResource32.sameK (version : Int16) : KStep (DescribeConfigsResource32.decodeK version) (DescribeConfigsResource32.decode version) :=
  (KStep.field)
    |>.andThen (KStep.field)
    |>.andThen (KStep.field)
theorem DescribeConfigsResource32.cutsK (version : Int16) (t : DescribeConfigsResource32) (h : t.Fits version) :
    Cuts (DescribeConfigsResource32.decodeK version) 0 (DescribeConfigsResource32.wire version t) (DescribeConfigsResource32.ends version t 2) (DescribeConfigsResource32.cutAt version t 0) (DescribeConfigsResource32.cutAt version t 3) :=
  (.field (reads_int8 t.ResourceType) (fun _ => rfl) (fun _ => rfl) : Cuts _ 0 _ (DescribeConfigsResource32.ends version t 0) (DescribeConfigsResource32.cutAt version t 0) (DescribeConfigsResource32.cutAt version t 1))
    |>.andThen (.field (reads_string h.ResourceName) (fun _ => rfl) (fun _ => rfl) : Cuts _ (DescribeConfigsResource32.ends version t 0) _ (DescribeConfigsResource32.ends version t 1) (DescribeConfigsResource32.cutAt version t 1) (DescribeConfigsResource32.cutAt version t 2))
    |>.andThen (.field (reads_stringArray h.ConfigurationKeys) (fun _ => rfl) (fun _ => rfl) : Cuts _ (DescribeConfigsResource32.ends version t 1) _ (DescribeConfigsResource32.ends version t 2) (DescribeConfigsResource32.cutAt version t 2) (DescribeConfigsResource32.cutAt version t 3))
theorem DescribeConfigsResource32.partsK (version : Int16) : Parts (DescribeConfigsResource32.decodeK version) (DescribeConfigsResource32.first 0) (DescribeConfigsResource32.first 3) (fun r y => (((r = DescribeConfigsResource32.first 0 y) ∨ (r = DescribeConfigsResource32.first 1 y)) ∨ (r = DescribeConfigsResource32.first 2 y))) :=
  (.field Longer.int8 (fun _ => rfl) (fun _ _ => rfl) (fun _ _ => rfl) (fun _ => rfl) : Parts (KDec.field Dec.int8 0 (fun t x => { t with ResourceType := x })) (DescribeConfigsResource32.first 0) (DescribeConfigsResource32.first 1) (fun r y => r = DescribeConfigsResource32.first 0 y))
    |>.andThen (.field Longer.string (fun _ => rfl) (fun _ _ => rfl) (fun _ _ => rfl) (fun _ => rfl) : Parts (KDec.field Dec.string [] (fun t x => { t with ResourceName := x })) (DescribeConfigsResource32.first 1) (DescribeConfigsResource32.first 2) (fun r y => r = DescribeConfigsResource32.first 1 y))
    |>.andThen (.field Longer.stringArray (fun _ => rfl) (fun _ _ => rfl) (fun _ _ => rfl) (fun _ => rfl) : Parts (KDec.field Dec.stringArray none (fun t x => { t with ConfigurationKeys := x })) (DescribeConfigsResource32.first 2) (DescribeConfigsResource32.first 3) (fun r y => r = DescribeConfigsResource32.first 2 y))
theorem DescribeConfigsResource32.filled (version : Int16) : FilledStep 7 4295000070 (DescribeConfigsResource32.decode version) :=
  ((FilledStep.field .int8)
    |>.andThen (FilledStep.field .string)
    |>.andThen (FilledStep.field .stringArray)).mono (by decide) (by decide)
theorem DescribeConfigsResource32.part_of (r y : DescribeConfigsResource32) (h : (((r = DescribeConfigsResource32.first 0 y) ∨ (r = DescribeConfigsResource32.first 1 y)) ∨ (r = DescribeConfigsResource32.first 2 y))) : DescribeConfigsResource32.Part r y :=
  match h with
    | (.inl (.inl h)) => ⟨0, by decide, h⟩
    | (.inl (.inr h)) => ⟨1, by decide, h⟩
    | (.inr h) => ⟨2, by decide, h⟩
theorem DescribeConfigsResource32.keeps_holds : DescribeConfigsResource32.keeps.Holds DescribeConfigsResource32.layout :=
  KeptMsg.holds DescribeConfigsResource32.lawful DescribeConfigsResource32.sameK (stop := fun v t => DescribeConfigsResource32.ends v t 2) (c := fun v t => DescribeConfigsResource32.cutAt v t 0) (fun _ _ _ => rfl) DescribeConfigsResource32.cutsK (c0 := DescribeConfigsResource32.first 0) rfl DescribeConfigsResource32.partsK DescribeConfigsResource32.part_of DescribeConfigsResource32.filled (by decide) (by decide)

/-- message/messages.gen.go:8462-8484 `DescribeConfigsRequest.Decode`, with the receiver kept -/
def DescribeConfigsRequest.decodeK (version : Int16) : KDec DescribeConfigsRequest :=
    KDec.fieldStructs (DescribeConfigsResource32.decodeK version {}) {} (fun t x => { t with Resources := x }) ;|>
    KDec.onlyIf (version ≥ 1) (KDec.field Dec.bool false (fun t x => { t with IncludeSynoyms := x }))

/-- Where the fields of `DescribeConfigsRequest` end. -/
def DescribeConfigsRequest.ends (version : Int16) (t : DescribeConfigsRequest) : Nat → Nat :=
  Cut.ends 0 [Wire.array (DescribeConfigsResource32.wire version) t.Resources,
    Wire.when (version ≥ 1) (Wire.bool t.IncludeSynoyms)]

/-- What is left of `t` if only its first `n` bytes are there. -/
def DescribeConfigsRequest.cut (version : Int16) (n : Nat) (t : DescribeConfigsRequest) : DescribeConfigsRequest :=
  { Resources := Cut.array n 0 (DescribeConfigsResource32.wire version) (fun x => x.seen version {}) {} t.Resources,
    IncludeSynoyms := Cut.gate (version ≥ 1) (Cut.field n (t.ends version 1) t.IncludeSynoyms false) false }

/-- The same after the first `k` statements of `Decode`. -/
def DescribeConfigsRequest.cutAt (version : Int16) (t : DescribeConfigsRequest) (k n : Nat) : DescribeConfigsRequest :=
  { Resources := upto k 0 (Cut.array n 0 (DescribeConfigsResource32.wire version) (fun x => x.seen version {}) {} t.Resources) none,
    IncludeSynoyms := upto k 1 (Cut.gate (version ≥ 1) (Cut.field n (t.ends version 1) t.IncludeSynoyms false) false) false }

/-- The first `k` fields of `y`, and zeros. -/
def DescribeConfigsRequest.first (k : Nat) (y : DescribeConfigsRequest) : DescribeConfigsRequest :=
  { Resources := upto k 0 y.Resources none,
    IncludeSynoyms := upto k 1 y.IncludeSynoyms false }

/-- `r` is a beginning of `y`, and zeros. -/
def DescribeConfigsRequest.Part (r y : DescribeConfigsRequest) : Prop :=
  (∃ k, k < 2 ∧ r = y.first k) ∨
    Cut.begun {} (fun t => t.Resources) (fun t x => { t with Resources := x }) (DescribeConfigsRequest.first 0) r y

/-- `DescribeConfigsRequest` with its receiver kept. -/
def DescribeConfigsRequest.keeps : KeptMsg DescribeConfigsRequest.type := { decode := DescribeConfigsRequest.decodeK, cut := DescribeConfigsRequest.cut, Part := DescribeConfigsRequest.Part }

theorem DescribeConfigsRequest.sameK (version : Int16) : KStep (DescribeConfigsRequest.decodeK version) (DescribeConfigsRequest.decode version) :=
  (KStep.structs (fun _ => rfl) (DescribeConfigsResource32.sameK version {}))
    |>.andThen (KStep.onlyIf (KStep.field))
theorem DescribeConfigsRequest.cutsK (version : Int16) (t : DescribeConfigsRequest) (h : t.Fits version) :
    Cuts (DescribeConfigsRequest.decodeK version) 0 (DescribeConfigsRequest.wire version t) (DescribeConfigsRequest.ends version t 1) (DescribeConfigsRequest.cutAt version t 0) (DescribeConfigsRequest.cutAt version t 2) :=
  (.structs (DescribeConfigsResource32.sameK version {}) (fun x hx => DescribeConfigsResource32.reads version x hx {}) h.Resources (fun _ => rfl) (fun _ => rfl) : Cuts _ 0 _ (DescribeConfigsRequest.ends version t 0) (DescribeConfigsRequest.cutAt version t 0) (DescribeConfigsRequest.cutAt version t 1))
    |>.andThen (.optField (fun _ => reads_bool t.IncludeSynoyms) (fun _ => rfl) (fun _ => rfl) : Cuts _ (DescribeConfigsRequest.ends version t 0) _ (DescribeConfigsRequest.ends version t 1) (DescribeConfigsRequest.cutAt version t 1) (DescribeConfigsRequest.cutAt version t 2))
theorem DescribeConfigsRequest.partsK (version : Int16) : Parts (DescribeConfigsRequest.decodeK version) (DescribeConfigsRequest.first 0) (DescribeConfigsRequest.first 2) (fun r y => ((r = DescribeConfigsRequest.first 0 y ∨ Cut.begun {} (fun t => t.Resources) (fun t x => { t with Resources := x }) (DescribeConfigsRequest.first 0) r y) ∨ (r = DescribeConfigsRequest.first 1 y))) :=
  (.structs (get := fun (t : DescribeConfigsRequest) => t.Resources) ((DescribeConfigsResource32.partsK version).longer {}) (fun _ => rfl) (fun _ => rfl) (fun _ _ => rfl) (fun _ _ => rfl) (fun _ _ => rfl) (fun _ => rfl) (fun _ => rfl) : Parts (KDec.fieldStructs (DescribeConfigsResource32.decodeK version {}) {} (fun t x => { t with Resources := x })) (DescribeConfigsRequest.first 0) (DescribeConfigsRequest.first 1) (fun r y => r = DescribeConfigsRequest.first 0 y ∨ Cut.begun {} (fun t => t.Resources) (fun t x => { t with Resources := x }) (DescribeConfigsRequest.first 0) r y))
    |>.andThen (.onlyIf (.field Longer.bool (fun _ => rfl) (fun _ _ => rfl) (fun _ _ => rfl) (fun _ => rfl)) (fun _ => rfl) : Parts (KDec.onlyIf (version ≥ 1) (KDec.field Dec.bool false (fun t x => { t with IncludeSynoyms := x }))) (DescribeConfigsRequest.first 1) (DescribeConfigsRequest.first 2) (fun r y => r = DescribeConfigsRequest.first 1 y))
theorem DescribeConfigsRequest.filled (version : Int16) : FilledStep 5 19327385611 (DescribeConfigsRequest.decode version) :=
  ((FilledStep.structs (DescribeConfigsResource32.filled version {}))
    |>.andThen (FilledStep.onlyIf (FilledStep.field .bool))).mono (by decide) (by decide)
theorem DescribeConfigsRequest.part_of (r y : DescribeConfigsRequest) (h : ((r = DescribeConfigsRequest.first 0 y ∨ Cut.begun {} (fun t => t.Resources) (fun t x => { t with Resources := x }) (DescribeConfigsRequest.first 0) r y) ∨ (r = DescribeConfigsRequest.first 1 y))) : DescribeConfigsRequest.Part r y :=
  match h with
    | (.inl (.inl h)) => .inl ⟨0, by decide, h⟩
    | (.inl (.inr h)) => (.inr h)
    | (.inr h) => .inl ⟨1, by decide, h⟩
theorem DescribeConfigsRequest.keeps_holds : DescribeConfigsRequest.keeps.Holds DescribeConfigsRequest.layout :=
  KeptMsg.holds DescribeConfigsRequest.lawful DescribeConfigsRequest.sameK (stop := fun v t => DescribeConfigsRequest.ends v t 1) (c := fun v t => DescribeConfigsRequest.cutAt v t 0) (fun _ _ _ => rfl) DescribeConfigsRequest.cutsK (c0 := DescribeConfigsRequest.first 0) rfl DescribeConfigsRequest.partsK DescribeConfigsRequest.part_of DescribeConfigsRequest.filled (by decide) (by decide)

/-- message/messages.gen.go:8786-8807 `DescribeConfigsSynonym32.Decode`, with the receiver kept -/
def DescribeConfigsSynonym32.decodeK (version : Int16) : KDec DescribeConfigsSynonym32 :=
    KDec.onlyIf (version ≥ 1) (KDec.field Dec.string [] (fun t x => { t with Name := x })) ;|>
    KDec.onlyIf (version ≥ 1) (KDec.field Dec.string [] (fun t x => { t with Value := x })) ;|>
    KDec.onlyIf (version ≥ 1) (KDec.field Dec.int8 0 (fun t x => { t with Source := x }))

/-- Where the fields of `DescribeConfigsSynonym32` end. -/
def DescribeConfigsSynonym32.ends (version : Int16) (t : DescribeConfigsSynonym32) : Nat → Nat :=
  Cut.ends 0 [Wire.when (version ≥ 1) (Wire.string t.Name),
    Wire.when (version ≥ 1) (Wire.string t.Value),
    Wire.when (version ≥ 1) (Wire.int8 t.Source)]

/-- What is left of `t` if only its first `n` bytes are there. -/
def DescribeConfigsSynonym32.cut (version : Int16) (n : Nat) (t : DescribeConfigsSynonym32) : DescribeConfigsSynonym32 :=
  { Name := Cut.gate (version ≥ 1) (Cut.field n (t.ends version 0) t.Name []) [],
    Value := Cut.gate (version ≥ 1) (Cut.field n (t.ends version 1) t.Value []) [],
    Source := Cut.gate (version ≥ 1) (Cut.field n (t.ends version 2) t.Source 0) 0 }

/-- The same after the first `k` statements of `Decode`. -/
def DescribeConfigsSynonym32.cutAt (version : Int16) (t : DescribeConfigsSynonym32) (k n : Nat) : DescribeConfigsSynonym32 :=
  { Name := upto k 0 (Cut.gate (version ≥ 1) (Cut.field n (t.ends version 0) t.Name []) []) [],
    Value := upto k 1 (Cut.gate (version ≥ 1) (Cut.field n (t.ends version 1) t.Value []) []) [],
    Source := upto k 2 (Cut.gate (version ≥ 1) (Cut.field n (t.ends version 2) t.Source 0) 0) 0 }

/-- The first `k` fields of `y`, and zeros. -/
def DescribeConfigsSynonym32.first (k : Nat) (y : DescribeConfigsSynonym32) : DescribeConfigsSynonym32 :=
  { Name := upto k 0 y.Name [],
    Value := upto k 1 y.Value [],
    Source := upto k 2 y.Source 0 }

/-- `r` is a beginning of `y`, and zeros. -/
def DescribeConfigsSynonym32.Part (r y : DescribeConfigsSynonym32) : Prop :=
  (∃ k, k < 3 ∧ r = y.first k)

/-- `DescribeConfigsSynonym32` with its receiver kept. -/
def DescribeConfigsSynonym32.keeps : KeptMsg DescribeConfigsSynonym32.type := { decode := DescribeConfigsSynonym32.decodeK, cut := DescribeConfigsSynonym32.cut, Part := DescribeConfigsSynonym32.Part }

theorem DescribeConfigsSynonym32.sameK (version : Int16) : KStep (DescribeConfigsSynonym32.decodeK version) (DescribeConfigsSynonym32.decode version) :=
  (KStep.onlyIf (KStep.field))
    |>.andThen (KStep.onlyIf (KStep.field))
    |>.andThen (KStep.onlyIf (KStep.field))
theorem DescribeConfigsSynonym32.cutsK (version : Int16) (t : DescribeConfigsSynonym32) (h : t.Fits version) :
    Cuts (DescribeConfigsSynonym32.decodeK version) 0 (DescribeConfigsSynonym32.wire version t) (DescribeConfigsSynonym32.ends version t 2) (DescribeConfigsSynonym32.cutAt version t 0) (DescribeConfigsSynonym32.cutAt version t 3) :=
  (.optField (fun hc => reads_string (h.Name hc)) (fun _ => rfl) (fun _ => rfl) : Cuts _ 0 _ (DescribeConfigsSynonym32.ends version t 0) (DescribeConfigsSynonym32.cutAt version t 0) (DescribeConfigsSynonym32.cutAt version t 1))
    |>.andThen (.optField (fun hc => reads_string (h.Value hc)) (fun _ => rfl) (fun _ => rfl) : Cuts _ (DescribeConfigsSynonym32.ends version t 0) _ (DescribeConfigsSynonym32.ends version t 1) (DescribeConfigsSynonym32.cutAt version t 1) (DescribeConfigsSynonym32.cutAt version t 2))
    |>.andThen (.optField (fun _ => reads_int8 t.Source) (fun _ => rfl) (fun _ => rfl) : Cuts _ (DescribeConfigsSynonym32.ends version t 1) _ (DescribeConfigsSynonym32.ends version t 2) (DescribeConfigsSynonym32.cutAt version t 2) (DescribeConfigsSynonym32.cutAt version t 3))
theorem DescribeConfigsSynonym32.partsK (version : Int16) : Parts (DescribeConfigsSynonym32.decodeK version) (DescribeConfigsSynonym32.first 0) (DescribeConfigsSynonym32.first 3) (fun r y => (((r = DescribeConfigsSynonym32.first 0 y) ∨ (r = DescribeConfigsSynonym32.first 1 y)) ∨ (r = DescribeConfigsSynonym32.first 2 y))) :=
  (.onlyIf (.field Longer.string (fun _ => rfl) (fun _ _ => rfl) (fun _ _ => rfl) (fun _ => rfl)) (fun _ => rfl) : Parts (KDec.onlyIf (version ≥ 1) (KDec.field Dec.string [] (fun t x => { t with Name := x }))) (DescribeConfigsSynonym32.first 0) (DescribeConfigsSynonym32.first 1) (fun r y => r = DescribeConfigsSynonym32.first 0 y))
    |>.andThen (.onlyIf (.field Longer.string (fun _ => rfl) (fun _ _ => rfl) (fun _ _ => rfl) (fun _ => rfl)) (fun _ => rfl) : Parts (KDec.onlyIf (version ≥ 1) (KDec.field Dec.string [] (fun t x => { t with Value := x }))) (DescribeConfigsSynonym32.first 1) (DescribeConfigsSynonym32.first 2) (fun r y => r = DescribeConfigsSynonym32.first 1 y))
    |>.andThen (.onlyIf (.field Longer.int8 (fun _ => rfl) (fun _ _ => rfl) (fun _ _ => rfl) (fun _ => rfl)) (fun _ => rfl) : Parts (KDec.onlyIf (version ≥ 1) (KDec.field Dec.int8 0 (fun t x => { t with Source := x }))) (DescribeConfigsSynonym32.first 2) (DescribeConfigsSynonym32.first 3) (fun r y => r = DescribeConfigsSynonym32.first 2 y))
theorem DescribeConfigsSynonym32.filled (version : Int16) : FilledStep 5 32773 (DescribeConfigsSynonym32.decode version) :=
  ((FilledStep.onlyIf (FilledStep.field .string))
    |>.andThen (FilledStep.onlyIf (FilledStep.field .string))
    |>.andThen (FilledStep.onlyIf (FilledStep.field .int8))).mono (by decide) (by decide)
theorem DescribeConfigsSynonym32.part_of (r y : DescribeConfigsSynonym32) (h : (((r = DescribeConfigsSynonym32.first 0 y) ∨ (r = DescribeConfigsSynonym32.first 1 y)) ∨ (r = DescribeConfigsSynonym32.first 2 y))) : DescribeConfigsSynonym32.Part r y :=
  match h with
    | (.inl (.inl h)) => ⟨0, by decide, h⟩
    | (.inl (.inr h)) => ⟨1, by decide, h⟩
    | (.inr h) => ⟨2, by decide, h⟩
theorem DescribeConfigsSynonym32.keeps_holds : DescribeConfigsSynonym32.keeps.Holds DescribeConfigsSynonym32.layout :=
  KeptMsg.holds DescribeConfigsSynonym32.lawful DescribeConfigsSynonym32.sameK (stop := fun v t => DescribeConfigsSynonym32.ends v t 2) (c := fun v t => DescribeConfigsSynonym32.cutAt v t 0) (fun _ _ _ => rfl) DescribeConfigsSynonym32.cutsK (c0 := DescribeConfigsSynonym32.first 0) rfl DescribeConfigsSynonym32.partsK DescribeConfigsSynonym32.part_of DescribeConfigsSynonym32.filled (by decide) (by decide)

/-- message/messages.gen.go:8703-8749 `DescribeConfigsResourceResult32.Decode`, with the receiver kept -/
def DescribeConfigsResourceResult32.decodeK (version : Int16) : KDec DescribeConfigsResourceResult32 :=
    KDec.field Dec.string [] (fun t x => { t with Name := x }) ;|>
    KDec.field Dec.string [] (fun t x => { t with Value := x }) ;|>
    KDec.field Dec.bool false (fun t x => { t with ReadOnly := x }) ;|>
    KDec.onlyIf (version ≥ 0 ∧ version ≤ 0) (KDec.field Dec.bool false (fun t x => { t with IsDefault := x })) ;|>
    KDec.onlyIf (version ≥ 1) (KDec.field Dec.int8 0 (fun t x => { t with ConfigSource := x })) ;|>
    KDec.field Dec.bool false (fun t x => { t with IsSensitive := x }) ;|>
    KDec.onlyIf (version ≥ 1) (KDec.fieldStructs (DescribeConfigsSynonym32.decodeK version {}) {} (fun t x => { t with Synonyms := x }))

/-- Where the fields of `DescribeConfigsResourceResult32` end. -/
def DescribeConfigsResourceResult32.ends (version : Int16) (t : DescribeConfigsResourceResult32) : Nat → Nat :=
  Cut.ends 0 [Wire.string t.Name,
    Wire.string t.Value,
    Wire.bool t.ReadOnly,
    Wire.when (version ≥ 0 ∧ version ≤ 0) (Wire.bool t.IsDefault),
    Wire.when (version ≥ 1) (Wire.int8 t.ConfigSource),
    Wire.bool t.IsSensitive,
    Wire.when (version ≥ 1) (Wire.array (DescribeConfigsSynonym32.wire version) t.Synonyms)]

/-- What is left of `t` if only its first `n` bytes are there. -/
def DescribeConfigsResourceResult32.cut (version : Int16) (n : Nat) (t : DescribeConfigsResourceResult32) : DescribeConfigsResourceResult32 :=
  { Name := Cut.field n (t.ends version 0) t.Name [],
    Value := Cut.field n (t.ends version 1) t.Value [],
    ReadOnly := Cut.field n (t.ends version 2) t.ReadOnly false,
    IsDefault := Cut.gate (version ≥ 0 ∧ version ≤ 0) (Cut.field n (t.ends version 3) t.IsDefault false) false,
    ConfigSource := Cut.gate (version ≥ 1) (Cut.field n (t.ends version 4) t.ConfigSource 0) 0,
    IsSensitive := Cut.field n (t.ends version 5) t.IsSensitive false,
    Synonyms := Cut.gate (version ≥ 1) (Cut.array n (t.ends version 5) (DescribeConfigsSynonym32.wire version) (fun x => x.seen version {}) {} t.Synonyms) none }

/-- The same after the first `k` statements of `Decode`. -/
def DescribeConfigsResourceResult32.cutAt (version : Int16) (t : DescribeConfigsResourceResult32) (k n : Nat) : DescribeConfigsResourceResult32 :=
  { Name := upto k 0 (Cut.field n (t.ends version 0) t.Name []) [],
    Value := upto k 1 (Cut.field n (t.ends version 1) t.Value []) [],
    ReadOnly := upto k 2 (Cut.field n (t.ends version 2) t.ReadOnly false) false,
    IsDefault := upto k 3 (Cut.gate (version ≥ 0 ∧ version ≤ 0) (Cut.field n (t.ends version 3) t.IsDefault false) false) false,
    ConfigSource := upto k 4 (Cut.gate (version ≥ 1) (Cut.field n (t.ends version 4) t.ConfigSource 0) 0) 0,
    IsSensitive := upto k 5 (Cut.field n (t.ends version 5) t.IsSensitive false) false,
    Synonyms := upto k 6 (Cut.gate (version ≥ 1) (Cut.array n (t.ends version 5) (DescribeConfigsSynonym32.wire version) (fun x => x.seen version {}) {} t.Synonyms) none) none }

/-- The first `k` fields of `y`, and zeros. -/
def DescribeConfigsResourceResult32.first (k : Nat) (y : DescribeConfigsResourceResult32) : DescribeConfigsResourceResult32 :=
  { Name := upto k 0 y.Name [],
    Value := upto k 1 y.Value [],
    ReadOnly := upto k 2 y.ReadOnly false,
    IsDefault := upto k 3 y.IsDefault false,
    ConfigSource := upto k 4 y.ConfigSource 0,
    IsSensitive := upto k 5 y.IsSensitive false,
    Synonyms := upto k 6 y.Synonyms none }

/-- `r` is a beginning of `y`, and zeros. -/
def DescribeConfigsResourceResult32.Part (r y : DescribeConfigsResourceResult32) : Prop :=
  (∃ k, k < 7 ∧ r = y.first k) ∨
    Cut.begun {} (fun t => t.Synonyms) (fun t x => { t with Synonyms := x }) (DescribeConfigsResourceResult32.first 6) r y

/-- `DescribeConfigsResourceResult32` with its receiver kept. -/
def DescribeConfigsResourceResult32.keeps : KeptMsg DescribeConfigsResourceResult32.type := { decode := DescribeConfigsResourceResult32.decodeK, cut := DescribeConfigsResourceResult32.cut, Part := DescribeConfigsResourceResult32.Part }

theorem DescribeConfigsResourceResult32.sameK (version : Int16) : KStep (DescribeConfigsResourceResult32.decodeK version) (DescribeConfigsResourceResult32.decode version) :=
  (KStep.field)
    |>.andThen (KStep.field)
    |>.andThen (KStep.field)
    |>.andThen (KStep.onlyIf (KStep.field))
    |>.andThen (KStep.onlyIf (KStep.field))
    |>.andThen (KStep.field)
    |>.andThen (KStep.onlyIf (KStep.structs (fun _ => rfl) (DescribeConfigsSynonym32.sameK version {})))
theorem DescribeConfigsResourceResult32.cutsK (version : Int16) (t : DescribeConfigsResourceResult32) (h : t.Fits version) :
    Cuts (DescribeConfigsResourceResult32.decodeK version) 0 (DescribeConfigsResourceResult32.wire version t) (DescribeConfigsResourceResult32.ends version t 6) (DescribeConfigsResourceResult32.cutAt version t 0) (DescribeConfigsResourceResult32.cutAt version t 7) :=
  (.field (reads_string h.Name) (fun _ => rfl) (fun _ => rfl) : Cuts _ 0 _ (DescribeConfigsResourceResult32.ends version t 0) (DescribeConfigsResourceResult32.cutAt version t 0) (DescribeConfigsResourceResult32.cutAt version t 1))
    |>.andThen (.field (reads_string h.Value) (fun _ => rfl) (fun _ => rfl) : Cuts _ (DescribeConfigsResourceResult32.ends version t 0) _ (DescribeConfigsResourceResult32.ends version t 1) (DescribeConfigsResourceResult32.cutAt version t 1) (DescribeConfigsResourceResult32.cutAt version t 2))
    |>.andThen (.field (reads_bool t.ReadOnly) (fun _ => rfl) (fun _ => rfl) : Cuts _ (DescribeConfigsResourceResult32.ends version t 1) _ (DescribeConfigsResourceResult32.ends version t 2) (DescribeConfigsResourceResult32.cutAt version t 2) (DescribeConfigsResourceResult32.cutAt version t 3))
    |>.andThen (.optField (fun _ => reads_bool t.IsDefault) (fun _ => rfl) (fun _ => rfl) : Cuts _ (DescribeConfigsResourceResult32.ends version t 2) _ (DescribeConfigsResourceResult32.ends version t 3) (DescribeConfigsResourceResult32.cutAt version t 3) (DescribeConfigsResourceResult32.cutAt version t 4))
    |>.andThen (.optField (fun _ => reads_int8 t.ConfigSource) (fun _ => rfl) (fun _ => rfl) : Cuts _ (DescribeConfigsResourceResult32.ends version t 3) _ (DescribeConfigsResourceResult32.ends version t 4) (DescribeConfigsResourceResult32.cutAt version t 4) (DescribeConfigsResourceResult32.cutAt version t 5))
    |>.andThen (.field (reads_bool t.IsSensitive) (fun _ => rfl) (fun _ => rfl) : Cuts _ (DescribeConfigsResourceResult32.ends version t 4) _ (DescribeConfigsResourceResult32.ends version t 5) (DescribeConfigsResourceResult32.cutAt version t 5) (DescribeConfigsResourceResult32.cutAt version t 6))
    |>.andThen (.optStructs (DescribeConfigsSynonym32.sameK version {}) (fun x hx => DescribeConfigsSynonym32.reads version x hx {}) h.Synonyms (fun _ => rfl) (fun _ => rfl) : Cuts _ (DescribeConfigsResourceResult32.ends version t 5) _ (DescribeConfigsResourceResult32.ends version t 6) (DescribeConfigsResourceResult32.cutAt version t 6) (DescribeConfigsResourceResult32.cutAt version t 7))
theorem DescribeConfigsResourceResult32.partsK (version : Int16) : Parts (DescribeConfigsResourceResult32.decodeK version) (DescribeConfigsResourceResult32.first 0) (DescribeConfigsResourceResult32.first 7) (fun r y => (((((((r = DescribeConfigsResourceResult32.first 0 y) ∨ (r = DescribeConfigsResourceResult32.first 1 y)) ∨ (r = DescribeConfigsResourceResult32.first 2 y)) ∨ (r = DescribeConfigsResourceResult32.first 3 y)) ∨ (r = DescribeConfigsResourceResult32.first 4 y)) ∨ (r = DescribeConfigsResourceResult32.first 5 y)) ∨ (r = DescribeConfigsResourceResult32.first 6 y ∨ Cut.begun {} (fun t => t.Synonyms) (fun t x => { t with Synonyms := x }) (DescribeConfigsResourceResult32.first 6) r y))) :=
  (.field Longer.string (fun _ => rfl) (fun _ _ => rfl) (fun _ _ => rfl) (fun _ => rfl) : Parts (KDec.field Dec.string [] (fun t x => { t with Name := x })) (DescribeConfigsResourceResult32.first 0) (DescribeConfigsResourceResult32.first 1) (fun r y => r = DescribeConfigsResourceResult32.first 0 y))
    |>.andThen (.field Longer.string (fun _ => rfl) (fun _ _ => rfl) (fun _ _ => rfl) (fun _ => rfl) : Parts (KDec.field Dec.string [] (fun t x => { t with Value := x })) (DescribeConfigsResourceResult32.first 1) (DescribeConfigsResourceResult32.first 2) (fun r y => r = DescribeConfigsResourceResult32.first 1 y))
    |>.andThen (.field Longer.bool (fun _ => rfl) (fun _ _ => rfl) (fun _ _ => rfl) (fun _ => rfl) : Parts (KDec.field Dec.bool false (fun t x => { t with ReadOnly := x })) (DescribeConfigsResourceResult32.first 2) (DescribeConfigsResourceResult32.first 3) (fun r y => r = DescribeConfigsResourceResult32.first 2 y))
    |>.andThen (.onlyIf (.field Longer.bool (fun _ => rfl) (fun _ _ => rfl) (fun _ _ => rfl) (fun _ => rfl)) (fun _ => rfl) : Parts (KDec.onlyIf (version ≥ 0 ∧ version ≤ 0) (KDec.field Dec.bool false (fun t x => { t with IsDefault := x }))) (DescribeConfigsResourceResult32.first 3) (DescribeConfigsResourceResult32.first 4) (fun r y => r = DescribeConfigsResourceResult32.first 3 y))
    |>.andThen (.onlyIf (.field Longer.int8 (fun _ => rfl) (fun _ _ => rfl) (fun _ _ => rfl) (fun _ => rfl)) (fun _ => rfl) : Parts (KDec.onlyIf (version ≥ 1) (KDec.field Dec.int8 0 (fun t x => { t with ConfigSource := x }))) (DescribeConfigsResourceResult32.first 4) (DescribeConfigsResourceResult32.first 5) (fun r y => r = DescribeConfigsResourceResult32.first 4 y))
    |>.andThen (.field Longer.bool (fun _ => rfl) (fun _ _ => rfl) (fun _ _ => rfl) (fun _ => rfl) : Parts (KDec.field Dec.bool false (fun t x => { t with IsSensitive := x })) (DescribeConfigsResourceResult32.first 5) (DescribeConfigsResourceResult32.first 6) (fun r y => r = DescribeConfigsResourceResult32.first 5 y))
    |>.andThen (.onlyIf (.structs (get := fun (t : DescribeConfigsResourceResult32) => t.Synonyms) ((DescribeConfigsSynonym32.partsK version).longer {}) (fun _ => rfl) (fun _ => rfl) (fun _ _ => rfl) (fun _ _ => rfl) (fun _ _ => rfl) (fun _ => rfl) (fun _ => rfl)) (fun _ => rfl) : Parts (KDec.onlyIf (version ≥ 1) (KDec.fieldStructs (DescribeConfigsSynonym32.decodeK version {}) {} (fun t x => { t with Synonyms := x }))) (DescribeConfigsResourceResult32.first 6) (DescribeConfigsResourceResult32.first 7) (fun r y => r = DescribeConfigsResourceResult32.first 6 y ∨ Cut.begun {} (fun t => t.Synonyms) (fun t x => { t with Synonyms := x }) (DescribeConfigsResourceResult32.first 6) r y))
theorem DescribeConfigsResourceResult32.filled (version : Int16) : FilledStep 12 10737451017 (DescribeConfigsResourceResult32.decode version) :=
  ((FilledStep.field .string)
    |>.andThen (FilledStep.field .string)
    |>.andThen (FilledStep.field .bool)
    |>.andThen (FilledStep.onlyIf (FilledStep.field .bool))
    |>.andThen (FilledStep.onlyIf (FilledStep.field .int8))
    |>.andThen (FilledStep.field .bool)
    |>.andThen (FilledStep.onlyIf (FilledStep.structs (DescribeConfigsSynonym32.filled version {})))).mono (by decide) (by decide)
theorem DescribeConfigsResourceResult32.part_of (r y : DescribeConfigsResourceResult32) (h : (((((((r = DescribeConfigsResourceResult32.first 0 y) ∨ (r = DescribeConfigsResourceResult32.first 1 y)) ∨ (r = DescribeConfigsResourceResult32.first 2 y)) ∨ (r = DescribeConfigsResourceResult32.first 3 y)) ∨ (r = DescribeConfigsResourceResult32.first 4 y)) ∨ (r = DescribeConfigsResourceResult32.first 5 y)) ∨ (r = DescribeConfigsResourceResult32.first 6 y ∨ Cut.begun {} (fun t => t.Synonyms) (fun t x => { t with Synonyms := x }) (DescribeConfigsResourceResult32.first 6) r y))) : DescribeConfigsResourceResult32.Part r y :=
  match h with
    | (.inl (.inl (.inl (.inl (.inl (.inl h)))))) => .inl ⟨0, by decide, h⟩
    | (.inl (.inl (.inl (.inl (.inl (.inr h)))))) => .inl ⟨1, by decide, h⟩
    | (.inl (.inl (.inl (.inl (.inr h))))) => .inl ⟨2, by decide, h⟩
    | (.inl (.inl (.inl (.inr h)))) => .inl ⟨3, by decide, h⟩
    | (.inl (.inl (.inr h))) => .inl ⟨4, by decide, h⟩
    | (.inl (.inr h)) => .inl ⟨5, by decide, h⟩
    | (.inr (.inl h)) => .inl ⟨6, by decide, h⟩
    | (.inr (.inr h)) => (.inr h)
theorem DescribeConfigsResourceResult32.keeps_holds : DescribeConfigsResourceResult32.keeps.Holds DescribeConfigsResourceResult32.layout :=
  KeptMsg.holds DescribeConfigsResourceResult32.lawful DescribeConfigsResourceResult32.sameK (stop := fun v t => DescribeConfigsResourceResult32.ends v t 6) (c := fun v t => DescribeConfigsResourceResult32.cutAt v t 0) (fun _ _ _ => rfl) DescribeConfigsResourceResult32.cutsK (c0 := DescribeConfigsResourceResult32.first 0) rfl DescribeConfigsResourceResult32.partsK DescribeConfigsResourceResult32.part_of DescribeConfigsResourceResult32.filled (by decide) (by decide)

/-- message/messages.gen.go:8614-8646 `DescribeConfigsResult32.Decode`, with the receiver kept -/
def DescribeConfigsResult32.decodeK (version : Int16) : KDec DescribeConfigsResult32 :=
    KDec.field Dec.int16 0 (fun t x => { t with ErrorCode := x }) ;|>
    KDec.field Dec.string [] (fun t x => { t with ErrorMessage := x }) ;|>
    KDec.field Dec.int8 0 (fun t x => { t with ResourceType := x }) ;|>
    KDec.field Dec.string [] (fun t x => { t with ResourceName := x }) ;|>
    KDec.fieldStructs (DescribeConfigsResourceResult32.decodeK version {}) {} (fun t x => { t with Configs := x })

/-- Where the fields of `DescribeConfigsResult32` end. -/
def DescribeConfigsResult32.ends (version : Int16) (t : DescribeConfigsResult32) : Nat → Nat :=
  Cut.ends 0 [Wire.int16 t.ErrorCode,
    Wire.string t.ErrorMessage,
    Wire.int8 t.ResourceType,
    Wire.string t.ResourceName,
    Wire.array (DescribeConfigsResourceResult32.wire version) t.Configs]

/-- What is left of `t` if only its first `n` bytes are there. -/
def DescribeConfigsResult32.cut (version : Int16) (n : Nat) (t : DescribeConfigsResult32) : DescribeConfigsResult32 :=
  { ErrorCode := Cut.field n (t.ends version 0) t.ErrorCode 0,
    ErrorMessage := Cut.field n (t.ends version 1) t.ErrorMessage [],
    ResourceType := Cut.field n (t.ends version 2) t.ResourceType 0,
    ResourceName := Cut.field n (t.ends version 3) t.ResourceName [],
    Configs := Cut.array n (t.ends version 3) (DescribeConfigsResourceResult32.wire version) (fun x => x.seen version {}) {} t.Configs }

/-- The same after the first `k` statements of `Decode`. -/
def DescribeConfigsResult32.cutAt (version : Int16) (t : DescribeConfigsResult32) (k n : Nat) : DescribeConfigsResult32 :=
  { ErrorCode := upto k 0 (Cut.field n (t.ends version 0) t.ErrorCode 0) 0,
    ErrorMessage := upto k 1 (Cut.field n (t.ends version 1) t.ErrorMessage []) [],
    ResourceType := upto k 2 (Cut.field n (t.ends version 2) t.ResourceType 0) 0,
    ResourceName := upto k 3 (Cut.field n (t.ends version 3) t.ResourceName []) [],
    Configs := upto k 4 (Cut.array n (t.ends version 3) (DescribeConfigsResourceResult32.wire version) (fun x => x.seen version {}) {} t.Configs) none }

/-- The first `k` fields of `y`, and zeros. -/
def DescribeConfigsResult32.first (k : Nat) (y : DescribeConfigsResult32) : DescribeConfigsResult32 :=
  { ErrorCode := upto k 0 y.ErrorCode 0,
    ErrorMessage := upto k 1 y.ErrorMessage [],
    ResourceType := upto k 2 y.ResourceType 0,
    ResourceName := upto k 3 y.ResourceName [],
    Configs := upto k 4 y.Configs none }

/-- `r` is a beginning of `y`, and zeros. -/
def DescribeConfigsResult32.Part (r y : DescribeConfigsResult32) : Prop :=
  (∃ k, k < 5 ∧ r = y.first k) ∨
    Cut.begun {} (fun t => t.Configs) (fun t x => { t with Configs := x }) (DescribeConfigsResult32.first 4) r y

/-- `DescribeConfigsResult32` with its receiver kept. -/
def DescribeConfigsResult32.keeps : KeptMsg DescribeConfigsResult32.type := { decode := DescribeConfigsResult32.decodeK, cut := DescribeConfigsResult32.cut, Part := DescribeConfigsResult32.Part }

theorem DescribeConfigsResult32.sameK (version : Int16) : KStep (DescribeConfigsResult32.decodeK version) (DescribeConfigsResult32.decode version) :=
  (KStep.field)
    |>.andThen (KStep.field)
    |>.andThen (KStep.field)
    |>.andThen (KStep.field)
    |>.andThen (KStep.structs (fun _ => rfl) (DescribeConfigsResourceResult32.sameK version {}))
theorem DescribeConfigsResult32.cutsK (version : Int16) (t : DescribeConfigsResult32) (h : t.Fits version) :
    Cuts (DescribeConfigsResult32.decodeK version) 0 (DescribeConfigsResult32.wire version t) (DescribeConfigsResult32.ends version t 4) (DescribeConfigsResult32.cutAt version t 0) (DescribeConfigsResult32.cutAt version t 5) :=
  (.field (reads_int16 t.ErrorCode) (fun _ => rfl) (fun _ => rfl) : Cuts _ 0 _ (DescribeConfigsResult32.ends version t 0) (DescribeConfigsResult32.cutAt version t 0) (DescribeConfigsResult32.cutAt version t 1))
    |>.andThen (.field (reads_string h.ErrorMessage) (fun _ => rfl) (fun _ => rfl) : Cuts _ (DescribeConfigsResult32.ends version t 0) _ (DescribeConfigsResult32.ends version t 1) (DescribeConfigsResult32.cutAt version t 1) (DescribeConfigsResult32.cutAt version t 2))
    |>.andThen (.field (reads_int8 t.ResourceType) (fun _ => rfl) (fun _ => rfl) : Cuts _ (DescribeConfigsResult32.ends version t 1) _ (DescribeConfigsResult32.ends version t 2) (DescribeConfigsResult32.cutAt version t 2) (DescribeConfigsResult32.cutAt version t 3))
    |>.andThen (.field (reads_string h.ResourceName) (fun _ => rfl) (fun _ => rfl) : Cuts _ (DescribeConfigsResult32.ends version t 2) _ (DescribeConfigsResult32.ends version t 3) (DescribeConfigsResult32.cutAt version t 3) (DescribeConfigsResult32.cutAt version t 4))
    |>.andThen (.structs (DescribeConfigsResourceResult32.sameK version {}) (fun x hx => DescribeConfigsResourceResult32.reads version x hx {}) h.Configs (fun _ => rfl) (fun _ => rfl) : Cuts _ (DescribeConfigsResult32.ends version t 3) _ (DescribeConfigsResult32.ends version t 4) (DescribeConfigsResult32.cutAt version t 4) (DescribeConfigsResult32.cutAt version t 5))
theorem DescribeConfigsResult32.partsK (version : Int16) : Parts (DescribeConfigsResult32.decodeK version) (DescribeConfigsResult32.first 0) (DescribeConfigsResult32.first 5) (fun r y => (((((r = DescribeConfigsResult32.first 0 y) ∨ (r = DescribeConfigsResult32.first 1 y)) ∨ (r = DescribeConfigsResult32.first 2 y)) ∨ (r = DescribeConfigsResult32.first 3 y)) ∨ (r = DescribeConfigsResult32.first 4 y ∨ Cut.begun {} (fun t => t.Configs) (fun t x => { t with Configs := x }) (DescribeConfigsResult32.first 4) r y))) :=
  (.field Longer.int16 (fun _ => rfl) (fun _ _ => rfl) (fun _ _ => rfl) (fun _ => rfl) : Parts (KDec.field Dec.int16 0 (fun t x => { t with ErrorCode := x })) (DescribeConfigsResult32.first 0) (DescribeConfigsResult32.first 1) (fun r y => r = DescribeConfigsResult32.first 0 y))
    |>.andThen (.field Longer.string (fun _ => rfl) (fun _ _ => rfl) (fun _ _ => rfl) (fun _ => rfl) : Parts (KDec.field Dec.string [] (fun t x => { t with ErrorMessage := x })) (DescribeConfigsResult32.first 1) (DescribeConfigsResult32.first 2) (fun r y => r = DescribeConfigsResult32.first 1 y))
    |>.andThen (.field Longer.int8 (fun _ => rfl) (fun _ _ => rfl) (fun _ _ => rfl) (fun _ => rfl) : Parts (KDec.field Dec.int8 0 (fun t x => { t with ResourceType := x })) (DescribeConfigsResult32.first 2) (DescribeConfigsResult32.first 3) (fun r y => r = DescribeConfigsResult32.first 2 y))
    |>.andThen (.field Longer.string (fun _ => rfl) (fun _ _ => rfl) (fun _ _ => rfl) (fun _ => rfl) : Parts (KDec.field Dec.string [] (fun t x => { t with ResourceName := x })) (DescribeConfigsResult32.first 3) (DescribeConfigsResult32.first 4) (fun r y => r = DescribeConfigsResult32.first 3 y))
    |>.andThen (.structs (get := fun (t : DescribeConfigsResult32) => t.Configs) ((DescribeConfigsResourceResult32.partsK version).longer {}) (fun _ => rfl) (fun _ => rfl) (fun _ _ => rfl) (fun _ _ => rfl) (fun _ _ => rfl) (fun _ => rfl) (fun _ => rfl) : Parts (KDec.fieldStructs (DescribeConfigsResourceResult32.decodeK version {}) {} (fun t x => { t with Configs := x })) (DescribeConfigsResult32.first 4) (DescribeConfigsResult32.first 5) (fun r y => r = DescribeConfigsResult32.first 4 y ∨ Cut.begun {} (fun t => t.Configs) (fun t x => { t with Configs := x }) (DescribeConfigsResult32.first 4) r y))
theorem DescribeConfigsResult32.filled (version : Int16) : FilledStep 11 36507254797 (DescribeConfigsResult32.decode version) :=
  ((FilledStep.field .int16)
    |>.andThen (FilledStep.field .string)
    |>.andThen (FilledStep.field .int8)
    |>.andThen (FilledStep.field .string)
    |>.andThen (FilledStep.structs (DescribeConfigsResourceResult32.filled version {}))).mono (by decide) (by decide)
theorem DescribeConfigsResult32.part_of (r y : DescribeConfigsResult32) (h : (((((r = DescribeConfigsResult32.first 0 y) ∨ (r = DescribeConfigsResult32.first 1 y)) ∨ (r = DescribeConfigsResult32.first 2 y)) ∨ (r = DescribeConfigsResult32.first 3 y)) ∨ (r = DescribeConfigsResult32.first 4 y ∨ Cut.begun {} (fun t => t.Configs) (fun t x => { t with Configs := x }) (DescribeConfigsResult32.first 4) r y))) : DescribeConfigsResult32.Part r y :=
  match h with
    | (.inl (.inl (.inl (.inl h)))) => .inl ⟨0, by decide, h⟩
    | (.inl (.inl (.inl (.inr h)))) => .inl ⟨1, by decide, h⟩
    | (.inl (.inl (.inr h))) => .inl ⟨2, by decide, h⟩
    | (.inl (.inr h)) => .inl ⟨3, by decide, h⟩
    | (.inr (.inl h)) => .inl ⟨4, by decide, h⟩
    | (.inr (.inr h)) => (.inr h)
theorem DescribeConfigsResult32.keeps_holds : DescribeConfigsResult32.keeps.Holds DescribeConfigsResult32.layout :=
  KeptMsg.holds DescribeConfigsResult32.lawful DescribeConfigsResult32.sameK (stop := fun v t => DescribeConfigsResult32.ends v t 4) (c := fun v t => DescribeConfigsResult32.cutAt v t 0) (fun _ _ _ => rfl) DescribeConfigsResult32.cutsK (c0 := DescribeConfigsResult32.first 0) rfl DescribeConfigsResult32.partsK DescribeConfigsResult32.part_of DescribeConfigsResult32.filled (by decide) (by decide)

/-- message/messages.gen.go:8555-8575 `DescribeConfigsResponse.Decode`, with the receiver kept -/
def DescribeConfigsResponse.decodeK (version : Int16) : KDec DescribeConfigsResponse :=
    KDec.field Dec.int32 0 (fun t x => { t with ThrottleTimeMs := x }) ;|>
    KDec.fieldStructs (DescribeConfigsResult32.decodeK version {}) {} (fun t x => { t with Results := x })

/-- Where the fields of `DescribeConfigsResponse` end. -/
def DescribeConfigsResponse.ends (version : Int16) (t : DescribeConfigsResponse) : Nat → Nat :=
  Cut.ends 0 [Wire.int32 t.ThrottleTimeMs,
    Wire.array (DescribeConfigsResult32.wire version) t.Results]

/-- What is left of `t` if only its first `n` bytes are there. -/
def DescribeConfigsResponse.cut (version : Int16) (n : Nat) (t : DescribeConfigsResponse) : DescribeConfigsResponse :=
  { ThrottleTimeMs := Cut.field n (t.ends version 0) t.ThrottleTimeMs 0,
    Results := Cut.array n (t.ends version 0) (DescribeConfigsResult32.wire version) (fun x => x.seen version {}) {} t.Results }

/-- The same after the first `k` statements of `Decode`. -/
def DescribeConfigsResponse.cutAt (version : Int16) (t : DescribeConfigsResponse) (k n : Nat) : DescribeConfigsResponse :=
  { ThrottleTimeMs := upto k 0 (Cut.field n (t.ends version 0) t.ThrottleTimeMs 0) 0,
    Results := upto k 1 (Cut.array n (t.ends version 0) (DescribeConfigsResult32.wire version) (fun x => x.seen version {}) {} t.Results) none }

/-- The first `k` fields of `y`, and zeros. -/
def DescribeConfigsResponse.first (k : Nat) (y : DescribeConfigsResponse) : DescribeConfigsResponse :=
  { ThrottleTimeMs := upto k 0 y.ThrottleTimeMs 0,
    Results := upto k 1 y.Results none }

/-- `r` is a beginning of `y`, and zeros. -/
def DescribeConfigsResponse.Part (r y : DescribeConfigsResponse) : Prop :=
  (∃ k, k < 2 ∧ r = y.first k) ∨
    Cut.begun {} (fun t => t.Results) (fun t x => { t with Results := x }) (DescribeConfigsResponse.first 1) r y

/-- `DescribeConfigsResponse` with its receiver kept. -/
def DescribeConfigsResponse.keeps : KeptMsg DescribeConfigsResponse.type := { decode := DescribeConfigsResponse.decodeK, cut := DescribeConfigsResponse.cut, Part := DescribeConfigsResponse.Part }

theorem DescribeConfigsResponse.sameK (version : Int16) : KStep (DescribeConfigsResponse.decodeK version) (DescribeConfigsResponse.decode version) :=
  (KStep.field)
    |>.andThen (KStep.structs (fun _ => rfl) (DescribeConfigsResult32.sameK version {}))
theorem DescribeConfigsResponse.cutsK (version : Int16) (t : DescribeConfigsResponse) (h : t.Fits version) :
    Cuts (DescribeConfigsResponse.decodeK version) 0 (DescribeConfigsResponse.wire version t) (DescribeConfigsResponse.ends version t 1) (DescribeConfigsResponse.cutAt version t 0) (DescribeConfigsResponse.cutAt version t 2) :=
  (.field (reads_int32 t.ThrottleTimeMs) (fun _ => rfl) (fun _ => rfl) : Cuts _ 0 _ (DescribeConfigsResponse.ends version t 0) (DescribeConfigsResponse.cutAt version t 0) (DescribeConfigsResponse.cutAt version t 1))
    |>.andThen (.structs (DescribeConfigsResult32.sameK version {}) (fun x hx => DescribeConfigsResult32.reads version x hx {}) h.Results (fun _ => rfl) (fun _ => rfl) : Cuts _ (DescribeConfigsResponse.ends version t 0) _ (DescribeConfigsResponse.ends version t 1) (DescribeConfigsResponse.cutAt version t 1) (DescribeConfigsResponse.cutAt version t 2))
theorem DescribeConfigsResponse.partsK (version : Int16) : Parts (DescribeConfigsResponse.decodeK version) (DescribeConfigsResponse.first 0) (DescribeConfigsResponse.first 2) (fun r y => ((r = DescribeConfigsResponse.first 0 y) ∨ (r = DescribeConfigsResponse.first 1 y ∨ Cut.begun {} (fun t => t.Results) (fun t x => { t with Results := x }) (DescribeConfigsResponse.first 1) r y))) :=
  (.field Longer.int32 (fun _ => rfl) (fun _ _ => rfl) (fun _ _ => rfl) (fun _ => rfl) : Parts (KDec.field Dec.int32 0 (fun t x => { t with ThrottleTimeMs := x })) (DescribeConfigsResponse.first 0) (DescribeConfigsResponse.first 1) (fun r y => r = DescribeConfigsResponse.first 0 y))
    |>.andThen (.structs (get := fun (t : DescribeConfigsResponse) => t.Results) ((DescribeConfigsResult32.partsK version).longer {}) (fun _ => rfl) (fun _ => rfl) (fun _ _ => rfl) (fun _ _ => rfl) (fun _ _ => rfl) (fun _ => rfl) (fun _ => rfl) : Parts (KDec.fieldStructs (DescribeConfigsResult32.decodeK version {}) {} (fun t x => { t with Results := x })) (DescribeConfigsResponse.first 1) (DescribeConfigsResponse.first 2) (fun r y => r = DescribeConfigsResponse.first 1 y ∨ Cut.begun {} (fun t => t.Results) (fun t x => { t with Results := x }) (DescribeConfigsResponse.first 1) r y))
theorem DescribeConfigsResponse.filled (version : Int16) : FilledStep 8 60129574929 (DescribeConfigsResponse.decode version) :=
  ((FilledStep.field .int32)
    |>.andThen (FilledStep.structs (DescribeConfigsResult32.filled version {}))).mono (by decide) (by decide)
theorem DescribeConfigsResponse.part_of (r y : DescribeConfigsResponse) (h : ((r = DescribeConfigsResponse.first 0 y) ∨ (r = DescribeConfigsResponse.first 1 y ∨ Cut.begun {} (fun t => t.Results) (fun t x => { t with Results := x }) (DescribeConfigsResponse.first 1) r y))) : DescribeConfigsResponse.Part r y :=
  match h with
    | (.inl h) => .inl ⟨0, by decide, h⟩
    | (.inr (.inl h)) => .inl ⟨1, by decide, h⟩
    | (.inr (.inr h)) => (.inr h)
theorem DescribeConfigsResponse.keeps_holds : DescribeConfigsResponse.keeps.Holds DescribeConfigsResponse.layout :=
  KeptMsg.holds DescribeConfigsResponse.lawful DescribeConfigsResponse.sameK (stop := fun v t => DescribeConfigsResponse.ends v t 1) (c := fun v t => DescribeConfigsResponse.cutAt v t 0) (fun _ _ _ => rfl) DescribeConfigsResponse.cutsK (c0 := DescribeConfigsResponse.first 0) rfl DescribeConfigsResponse.partsK DescribeConfigsResponse.part_of DescribeConfigsResponse.filled (by decide) (by decide)

/-- The structures of the DescribeConfigs messages. -/
def keptDescribeConfigs : List (Σ (M : MsgType) (_ : Layout M), KeptMsg M) :=
  [⟨DescribeConfigsRequest.type, DescribeConfigsRequest.layout, DescribeConfigsRequest.keeps⟩,
   ⟨DescribeConfigsResource32.type, DescribeConfigsResource32.layout, DescribeConfigsResource32.keeps⟩,
   ⟨DescribeConfigsResponse.type, DescribeConfigsResponse.layout, DescribeConfigsResponse.keeps⟩,
   ⟨DescribeConfigsResult32.type, DescribeConfigsResult32.layout, DescribeConfigsResult32.keeps⟩,
   ⟨DescribeConfigsResourceResult32.type, DescribeConfigsResourceResult32.layout, DescribeConfigsResourceResult32.keeps⟩,
   ⟨DescribeConfigsSynonym32.type, DescribeConfigsSynonym32.layout, DescribeConfigsSynonym32.keeps⟩]
theorem keptDescribeConfigs_holds : ∀ p ∈ keptDescribeConfigs, p.2.2.Holds p.2.1 := by
  unfold keptDescribeConfigs
  simp only [List.forall_mem_cons]
  exact ⟨DescribeConfigsRequest.keeps_holds, DescribeConfigsResource32.keeps_holds, DescribeConfigsResponse.keeps_holds, DescribeConfigsResult32.keeps_holds, DescribeConfigsResourceResult32.keeps_holds, DescribeConfigsSynonym32.keeps_holds, fun _ h => absurd h (by simp)⟩

end Kafka.Msg
