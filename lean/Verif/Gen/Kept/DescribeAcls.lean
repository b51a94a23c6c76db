import Verif.Message.KeptLemmas
import Verif.Gen.Proof.DescribeAcls
/-!
Generated by tools/gen_messages.py: what is in the DescribeAcls messages after an error.
-/
set_option linter.unusedVariables false
namespace Kafka.Msg

/-- message/messages.gen.go:7696-7729 `DescribeAclsRequest.Decode`, with the receiver kept -/
def DescribeAclsRequest.decodeK (version : Int16) : KDec DescribeAclsRequest :=
    KDec.field Dec.int8 0 (fun t x => { t with ResourceType := x }) ;|>
    KDec.field Dec.string [] (fun t x => { t with ResourceNameFilter := x }) ;|>
    KDec.onlyIf (version ≥ 1) (KDec.field Dec.int8 0 (fun t x => { t with ResourcePatternType := x })) ;|>
    KDec.field Dec.string [] (fun t x => { t with PrincipalFilter := x }) ;|>
    KDec.field Dec.string [] (fun t x => { t with HostFilter := x }) ;|>
    KDec.field Dec.int8 0 (fun t x => { t with Operation := x }) ;|>
    KDec.field Dec.int8 0 (fun t x => { t with PermissionType := x })

/-- Where the fields of `DescribeAclsRequest` end. -/
def DescribeAclsRequest.ends (version : Int16) (t : DescribeAclsRequest) : Nat → Nat :=
  Cut.ends 0 [Wire.int8 t.ResourceType,
    Wire.string t.ResourceNameFilter,
    Wire.when (version ≥ 1) (Wire.int8 t.ResourcePatternType),
    Wire.string t.PrincipalFilter,
    Wire.string t.HostFilter,
    Wire.int8 t.Operation,
    Wire.int8 t.PermissionType]

/-- What is left of `t` if only its first `n` bytes are there. -/
def DescribeAclsRequest.cut (version : Int16) (n : Nat) (t : DescribeAclsRequest) : DescribeAclsRequest :=
  { ResourceType := Cut.field n (t.ends version 0) t.ResourceType 0,
    ResourceNameFilter := Cut.field n (t.ends version 1) t.ResourceNameFilter [],
    ResourcePatternType := Cut.gate (version ≥ 1) (Cut.field n (t.ends version 2) t.ResourcePatternType 0) 0,
    PrincipalFilter := Cut.field n (t.ends version 3) t.PrincipalFilter [],
    HostFilter := Cut.field n (t.ends version 4) t.HostFilter [],
    Operation := Cut.field n (t.ends version 5) t.Operation 0,
    PermissionType := Cut.field n (t.ends version 6) t.PermissionType 0 }

/-- The same after the first `k` statements of `Decode`. -/
def DescribeAclsRequest.cutAt (version : Int16) (t : DescribeAclsRequest) (k n : Nat) : DescribeAclsRequest :=
  { ResourceType := upto k 0 (Cut.field n (t.ends version 0) t.ResourceType 0) 0,
    ResourceNameFilter := upto k 1 (Cut.field n (t.ends version 1) t.ResourceNameFilter []) [],
    ResourcePatternType := upto k 2 (Cut.gate (version ≥ 1) (Cut.field n (t.ends version 2) t.ResourcePatternType 0) 0) 0,
    PrincipalFilter := upto k 3 (Cut.field n (t.ends version 3) t.PrincipalFilter []) [],
    HostFilter := upto k 4 (Cut.field n (t.ends version 4) t.HostFilter []) [],
    Operation := upto k 5 (Cut.field n (t.ends version 5) t.Operation 0) 0,
    PermissionType := upto k 6 (Cut.field n (t.ends version 6) t.PermissionType 0) 0 }

/-- The first `k` fields of `y`, and zeros. -/
def DescribeAclsRequest.first (k : Nat) (y : DescribeAclsRequest) : DescribeAclsRequest :=
  { ResourceType := upto k 0 y.ResourceType 0,
    ResourceNameFilter := upto k 1 y.ResourceNameFilter [],
    ResourcePatternType := upto k 2 y.ResourcePatternType 0,
    PrincipalFilter := upto k 3 y.PrincipalFilter [],
    HostFilter := upto k 4 y.HostFilter [],
    Operation := upto k 5 y.Operation 0,
    PermissionType := upto k 6 y.PermissionType 0 }

/-- `r` is a beginning of `y`, and zeros. -/
def DescribeAclsRequest.Part (r y : DescribeAclsRequest) : Prop :=
  (∃ k, k < 7 ∧ r = y.first k)

/-- `DescribeAclsRequest` with its receiver kept. -/
def DescribeAclsRequest.keeps : KeptMsg DescribeAclsRequest.type := { decode := DescribeAclsRequest.decodeK, cut := DescribeAclsRequest.cut, Part := DescribeAclsRequest.Part }

theorem DescribeAclsRequest.sameK (version : Int16) : KStep (DescribeAclsRequest.decodeK version) (DescribeAclsRequest.decode version) :=
  (KStep.field)
    |>.andThen (KStep.field)
    |>.andThen (KStep.onlyIf (KStep.field))
    |>.andThen (KStep.field)
    |>.andThen (KStep.field)
    |>.andThen (KStep.field)
    |>.andThen (KStep.field)
theorem DescribeAclsRequest.cutsK (version : Int16) (t : DescribeAclsRequest) (h : t.Fits version) :
    Cuts (DescribeAclsRequest.decodeK version) 0 (DescribeAclsRequest.wire version t) (DescribeAclsRequest.ends version t 6) (DescribeAclsRequest.cutAt version t 0) (DescribeAclsRequest.cutAt version t 7) :=
  (.field (reads_int8 t.ResourceType) (fun _ => rfl) (fun _ => rfl) : Cuts _ 0 _ (DescribeAclsRequest.ends version t 0) (DescribeAclsRequest.cutAt version t 0) (DescribeAclsRequest.cutAt version t 1))
    |>.andThen (.field (reads_string h.ResourceNameFilter) (fun _ => rfl) (fun _ => rfl) : Cuts _ (DescribeAclsRequest.ends version t 0) _ (DescribeAclsRequest.ends version t 1) (DescribeAclsRequest.cutAt version t 1) (DescribeAclsRequest.cutAt version t 2))
    |>.andThen (.optField (fun _ => reads_int8 t.ResourcePatternType) (fun _ => rfl) (fun _ => rfl) : Cuts _ (DescribeAclsRequest.ends version t 1) _ (DescribeAclsRequest.ends version t 2) (DescribeAclsRequest.cutAt version t 2) (DescribeAclsRequest.cutAt version t 3))
    |>.andThen (.field (reads_string h.PrincipalFilter) (fun _ => rfl) (fun _ => rfl) : Cuts _ (DescribeAclsRequest.ends version t 2) _ (DescribeAclsRequest.ends version t 3) (DescribeAclsRequest.cutAt version t 3) (DescribeAclsRequest.cutAt version t 4))
    |>.andThen (.field (reads_string h.HostFilter) (fun _ => rfl) (fun _ => rfl) : Cuts _ (DescribeAclsRequest.ends version t 3) _ (DescribeAclsRequest.ends version t 4) (DescribeAclsRequest.cutAt version t 4) (DescribeAclsRequest.cutAt version t 5))
    |>.andThen (.field (reads_int8 t.Operation) (fun _ => rfl) (fun _ => rfl) : Cuts _ (DescribeAclsRequest.ends version t 4) _ (DescribeAclsRequest.ends version t 5) (DescribeAclsRequest.cutAt version t 5) (DescribeAclsRequest.cutAt version t 6))
    |>.andThen (.field (reads_int8 t.PermissionType) (fun _ => rfl) (fun _ => rfl) : Cuts _ (DescribeAclsRequest.ends version t 5) _ (DescribeAclsRequest.ends version t 6) (DescribeAclsRequest.cutAt version t 6) (DescribeAclsRequest.cutAt version t 7))
theorem DescribeAclsRequest.partsK (version : Int16) : Parts (DescribeAclsRequest.decodeK version) (DescribeAclsRequest.first 0) (DescribeAclsRequest.first 7) (fun r y => (((((((r = DescribeAclsRequest.first 0 y) ∨ (r = DescribeAclsRequest.first 1 y)) ∨ (r = DescribeAclsRequest.first 2 y)) ∨ (r = DescribeAclsRequest.first 3 y)) ∨ (r = DescribeAclsRequest.first 4 y)) ∨ (r = DescribeAclsRequest.first 5 y)) ∨ (r = DescribeAclsRequest.first 6 y))) :=
  (.field Longer.int8 (fun _ => rfl) (fun _ _ => rfl) (fun _ _ => rfl) (fun _ => rfl) : Parts (KDec.field Dec.int8 0 (fun t x => { t with ResourceType := x })) (DescribeAclsRequest.first 0) (DescribeAclsRequest.first 1) (fun r y => r = DescribeAclsRequest.first 0 y))
    |>.andThen (.field Longer.string (fun _ => rfl) (fun _ _ => rfl) (fun _ _ => rfl) (fun _ => rfl) : Parts (KDec.field Dec.string [] (fun t x => { t with ResourceNameFilter := x })) (DescribeAclsRequest.first 1) (DescribeAclsRequest.first 2) (fun r y => r = DescribeAclsRequest.first 1 y))
    |>.andThen (.onlyIf (.field Longer.int8 (fun _ => rfl) (fun _ _ => rfl) (fun _ _ => rfl) (fun _ => rfl)) (fun _ => rfl) : Parts (KDec.onlyIf (version ≥ 1) (KDec.field Dec.int8 0 (fun t x => { t with ResourcePatternType := x }))) (DescribeAclsRequest.first 2) (DescribeAclsRequest.first 3) (fun r y => r = DescribeAclsRequest.first 2 y))
    |>.andThen (.field Longer.string (fun _ => rfl) (fun _ _ => rfl) (fun _ _ => rfl) (fun _ => rfl) : Parts (KDec.field Dec.string [] (fun t x => { t with PrincipalFilter := x })) (DescribeAclsRequest.first 3) (DescribeAclsRequest.first 4) (fun r y => r = DescribeAclsRequest.first 3 y))
    |>.andThen (.field Longer.string (fun _ => rfl) (fun _ _ => rfl) (fun _ _ => rfl) (fun _ => rfl) : Parts (KDec.field Dec.string [] (fun t x => { t with HostFilter := x })) (DescribeAclsRequest.first 4) (DescribeAclsRequest.first 5) (fun r y => r = DescribeAclsRequest.first 4 y))
    |>.andThen (.field Longer.int8 (fun _ => rfl) (fun _ _ => rfl) (fun _ _ => rfl) (fun _ => rfl) : Parts (KDec.field Dec.int8 0 (fun t x => { t with Operation := x })) (DescribeAclsRequest.first 5) (DescribeAclsRequest.first 6) (fun r y => r = DescribeAclsRequest.first 5 y))
    |>.andThen (.field Longer.int8 (fun _ => rfl) (fun _ _ => rfl) (fun _ _ => rfl) (fun _ => rfl) : Parts (KDec.field Dec.int8 0 (fun t x => { t with PermissionType := x })) (DescribeAclsRequest.first 6) (DescribeAclsRequest.first 7) (fun r y => r = DescribeAclsRequest.first 6 y))
theorem DescribeAclsRequest.filled (version : Int16) : FilledStep 10 32777 (DescribeAclsRequest.decode version) :=
  ((FilledStep.field .int8)
    |>.andThen (FilledStep.field .string)
    |>.andThen (FilledStep.onlyIf (FilledStep.field .int8))
    |>.andThen (FilledStep.field .string)
    |>.andThen (FilledStep.field .string)
    |>.andThen (FilledStep.field .int8)
    |>.andThen (FilledStep.field .int8)).mono (by decide) (by decide)
theorem DescribeAclsRequest.part_of (r y : DescribeAclsRequest) (h : (((((((r = DescribeAclsRequest.first 0 y) ∨ (r = DescribeAclsRequest.first 1 y)) ∨ (r = DescribeAclsRequest.first 2 y)) ∨ (r = DescribeAclsRequest.first 3 y)) ∨ (r = DescribeAclsRequest.first 4 y)) ∨ (r = DescribeAclsRequest.first 5 y)) ∨ (r = DescribeAclsRequest.first 6 y))) : DescribeAclsRequest.Part r y :=
  match h with
    | (.inl (.inl (.inl (.inl (.inl (.inl h)))))) => ⟨0, by decide, h⟩
    | (.inl (.inl (.inl (.inl (.inl (.inr h)))))) => ⟨1, by decide, h⟩
    | (.inl (.inl (.inl (.inl (.inr h))))) => ⟨2, by decide, h⟩
    | (.inl (.inl (.inl (.inr h)))) => ⟨3, by decide, h⟩
    | (.inl (.inl (.inr h))) => ⟨4, by decide, h⟩
    | (.inl (.inr h)) => ⟨5, by decide, h⟩
    | (.inr h) => ⟨6, by decide, h⟩
theorem DescribeAclsRequest.keeps_holds : DescribeAclsRequest.keeps.Holds DescribeAclsRequest.layout :=
  KeptMsg.holds DescribeAclsRequest.lawful DescribeAclsRequest.sameK (stop := fun v t => DescribeAclsRequest.ends v t 6) (c := fun v t => DescribeAclsRequest.cutAt v t 0) (fun _ _ _ => rfl) DescribeAclsRequest.cutsK (c0 := DescribeAclsRequest.first 0) rfl DescribeAclsRequest.partsK DescribeAclsRequest.part_of DescribeAclsRequest.filled (by decide) (by decide)

/-- message/messages.gen.go:7892-7911 `AclDescription29.Decode`, with the receiver kept -/
def AclDescription29.decodeK (_version : Int16) : KDec AclDescription29 :=
    KDec.field Dec.string [] (fun t x => { t with Principal := x }) ;|>
    KDec.field Dec.string [] (fun t x => { t with Host := x }) ;|>
    KDec.field Dec.int8 0 (fun t x => { t with Operation := x }) ;|>
    KDec.field Dec.int8 0 (fun t x => { t with PermissionType := x })

/-- Where the fields of `AclDescription29` end. -/
def AclDescription29.ends (_version : Int16) (t : AclDescription29) : Nat → Nat :=
  Cut.ends 0 [Wire.string t.Principal,
    Wire.string t.Host,
    Wire.int8 t.Operation,
    Wire.int8 t.PermissionType]

/-- What is left of `t` if only its first `n` bytes are there. -/
def AclDescription29.cut (version : Int16) (n : Nat) (t : AclDescription29) : AclDescription29 :=
  { Principal := Cut.field n (t.ends version 0) t.Principal [],
    Host := Cut.field n (t.ends version 1) t.Host [],
    Operation := Cut.field n (t.ends version 2) t.Operation 0,
    PermissionType := Cut.field n (t.ends version 3) t.PermissionType 0 }

/-- The same after the first `k` statements of `Decode`. -/
def AclDescription29.cutAt (version : Int16) (t : AclDescription29) (k n : Nat) : AclDescription29 :=
  { Principal := upto k 0 (Cut.field n (t.ends version 0) t.Principal []) [],
    Host := upto k 1 (Cut.field n (t.ends version 1) t.Host []) [],
    Operation := upto k 2 (Cut.field n (t.ends version 2) t.Operation 0) 0,
    PermissionType := upto k 3 (Cut.field n (t.ends version 3) t.PermissionType 0) 0 }

/-- The first `k` fields of `y`, and zeros. -/
def AclDescription29.first (k : Nat) (y : AclDescription29) : AclDescription29 :=
  { Principal := upto k 0 y.Principal [],
    Host := upto k 1 y.Host [],
    Operation := upto k 2 y.Operation 0,
    PermissionType := upto k 3 y.PermissionType 0 }

/-- `r` is a beginning of `y`, and zeros. -/
def AclDescription29.Part (r y : AclDescription29) : Prop :=
  (∃ k, k < 4 ∧ r = y.first k)

/-- `AclDescription29` with its receiver kept. -/
def AclDescription29.keeps : KeptMsg AclDescription29.type := { decode := AclDescription29.decodeK, cut := AclDescription29.cut, Part := AclDescription29.Part }

theorem AclDescription29.sameK (version : Int16) : KStep (AclDescription29.decodeK version) (AclDescription29.decode version) :=
  (KStep.field)
    |>.andThen (KStep.field)
    |>.andThen (KStep.field)
    |>.andThen (KStep.field)
theorem AclDescription29.cutsK (version : Int16) (t : AclDescription29) (h : t.Fits version) :
    Cuts (AclDescription29.decodeK version) 0 (AclDescription29.wire version t) (AclDescription29.ends version t 3) (AclDescription29.cutAt version t 0) (AclDescription29.cutAt version t 4) :=
  (.field (reads_string h.Principal) (fun _ => rfl) (fun _ => rfl) : Cuts _ 0 _ (AclDescription29.ends version t 0) (AclDescription29.cutAt version t 0) (AclDescription29.cutAt version t 1))
    |>.andThen (.field (reads_string h.Host) (fun _ => rfl) (fun _ => rfl) : Cuts _ (AclDescription29.ends version t 0) _ (AclDescription29.ends version t 1) (AclDescription29.cutAt version t 1) (AclDescription29.cutAt version t 2))
    |>.andThen (.field (reads_int8 t.Operation) (fun _ => rfl) (fun _ => rfl) : Cuts _ (AclDescription29.ends version t 1) _ (AclDescription29.ends version t 2) (AclDescription29.cutAt version t 2) (AclDescription29.cutAt version t 3))
    |>.andThen (.field (reads_int8 t.PermissionType) (fun _ => rfl) (fun _ => rfl) : Cuts _ (AclDescription29.ends version t 2) _ (AclDescription29.ends version t 3) (AclDescription29.cutAt version t 3) (AclDescription29.cutAt version t 4))
theorem AclDescription29.partsK (version : Int16) : Parts (AclDescription29.decodeK version) (AclDescription29.first 0) (AclDescription29.first 4) (fun r y => ((((r = AclDescription29.first 0 y) ∨ (r = AclDescription29.first 1 y)) ∨ (r = AclDescription29.first 2 y)) ∨ (r = AclDescription29.first 3 y))) :=
  (.field Longer.string (fun _ => rfl) (fun _ _ => rfl) (fun _ _ => rfl) (fun _ => rfl) : Parts (KDec.field Dec.string [] (fun t x => { t with Principal := x })) (AclDescription29.first 0) (AclDescription29.first 1) (fun r y => r = AclDescription29.first 0 y))
    |>.andThen (.field Longer.string (fun _ => rfl) (fun _ _ => rfl) (fun _ _ => rfl) (fun _ => rfl) : Parts (KDec.field Dec.string [] (fun t x => { t with Host := x })) (AclDescription29.first 1) (AclDescription29.first 2) (fun r y => r = AclDescription29.first 1 y))
    |>.andThen (.field Longer.int8 (fun _ => rfl) (fun _ _ => rfl) (fun _ _ => rfl) (fun _ => rfl) : Parts (KDec.field Dec.int8 0 (fun t x => { t with Operation := x })) (AclDescription29.first 2) (AclDescription29.first 3) (fun r y => r = AclDescription29.first 2 y))
    |>.andThen (.field Longer.int8 (fun _ => rfl) (fun _ _ => rfl) (fun _ _ => rfl) (fun _ => rfl) : Parts (KDec.field Dec.int8 0 (fun t x => { t with PermissionType := x })) (AclDescription29.first 3) (AclDescription29.first 4) (fun r y => r = AclDescription29.first 3 y))
theorem AclDescription29.filled (version : Int16) : FilledStep 6 32774 (AclDescription29.decode version) :=
  ((FilledStep.field .string)
    |>.andThen (FilledStep.field .string)
    |>.andThen (FilledStep.field .int8)
    |>.andThen (FilledStep.field .int8)).mono (by decide) (by decide)
theorem AclDescription29.part_of (r y : AclDescription29) (h : ((((r = AclDescription29.first 0 y) ∨ (r = AclDescription29.first 1 y)) ∨ (r = AclDescription29.first 2 y)) ∨ (r = AclDescription29.first 3 y))) : AclDescription29.Part r y :=
  match h with
    | (.inl (.inl (.inl h))) => ⟨0, by decide, h⟩
    | (.inl (.inl (.inr h))) => ⟨1, by decide, h⟩
    | (.inl (.inr h)) => ⟨2, by decide, h⟩
    | (.inr h) => ⟨3, by decide, h⟩
theorem AclDescription29.keeps_holds : AclDescription29.keeps.Holds AclDescription29.layout :=
  KeptMsg.holds AclDescription29.lawful AclDescription29.sameK (stop := fun v t => AclDescription29.ends v t 3) (c := fun v t => AclDescription29.cutAt v t 0) (fun _ _ _ => rfl) AclDescription29.cutsK (c0 := AclDescription29.first 0) rfl AclDescription29.partsK AclDescription29.part_of AclDescription29.filled (by decide) (by decide)

/-- message/messages.gen.go:7834-7864 `DescribeAclsResource29.Decode`, with the receiver kept -/
def DescribeAclsResource29.decodeK (version : Int16) : KDec DescribeAclsResource29 :=
    KDec.field Dec.int8 0 (fun t x => { t with «Type» := x }) ;|>
    KDec.field Dec.string [] (fun t x => { t with Name := x }) ;|>
    KDec.onlyIf (version ≥ 1) (KDec.field Dec.int8 0 (fun t x => { t with PatternType := x })) ;|>
    KDec.fieldStructs (AclDescription29.decodeK version {}) {} (fun t x => { t with Acls := x })

/-- Where the fields of `DescribeAclsResource29` end. -/
def DescribeAclsResource29.ends (version : Int16) (t : DescribeAclsResource29) : Nat → Nat :=
  Cut.ends 0 [Wire.int8 t.«Type»,
    Wire.string t.Name,
    Wire.when (version ≥ 1) (Wire.int8 t.PatternType),
    Wire.array (AclDescription29.wire version) t.Acls]

/-- What is left of `t` if only its first `n` bytes are there. -/
def DescribeAclsResource29.cut (version : Int16) (n : Nat) (t : DescribeAclsResource29) : DescribeAclsResource29 :=
  { «Type» := Cut.field n (t.ends version 0) t.«Type» 0,
    Name := Cut.field n (t.ends version 1) t.Name [],
    PatternType := Cut.gate (version ≥ 1) (Cut.field n (t.ends version 2) t.PatternType 0) 0,
    Acls := Cut.array n (t.ends version 2) (AclDescription29.wire version) (fun x => x.seen version {}) {} t.Acls }

/-- The same after the first `k` statements of `Decode`. -/
def DescribeAclsResource29.cutAt (version : Int16) (t : DescribeAclsResource29) (k n : Nat) : DescribeAclsResource29 :=
  { «Type» := upto k 0 (Cut.field n (t.ends version 0) t.«Type» 0) 0,
    Name := upto k 1 (Cut.field n (t.ends version 1) t.Name []) [],
    PatternType := upto k 2 (Cut.gate (version ≥ 1) (Cut.field n (t.ends version 2) t.PatternType 0) 0) 0,
    Acls := upto k 3 (Cut.array n (t.ends version 2) (AclDescription29.wire version) (fun x => x.seen version {}) {} t.Acls) none }

/-- The first `k` fields of `y`, and zeros. -/
def DescribeAclsResource29.first (k : Nat) (y : DescribeAclsResource29) : DescribeAclsResource29 :=
  { «Type» := upto k 0 y.«Type» 0,
    Name := upto k 1 y.Name [],
    PatternType := upto k 2 y.PatternType 0,
    Acls := upto k 3 y.Acls none }

/-- `r` is a beginning of `y`, and zeros. -/
def DescribeAclsResource29.Part (r y : DescribeAclsResource29) : Prop :=
  (∃ k, k < 4 ∧ r = y.first k) ∨
    Cut.begun {} (fun t => t.Acls) (fun t x => { t with Acls := x }) (DescribeAclsResource29.first 3) r y

/-- `DescribeAclsResource29` with its receiver kept. -/
def DescribeAclsResource29.keeps : KeptMsg DescribeAclsResource29.type := { decode := DescribeAclsResource29.decodeK, cut := DescribeAclsResource29.cut, Part := DescribeAclsResource29.Part }

theorem DescribeAclsResource29.sameK (version : Int16) : KStep (DescribeAclsResource29.decodeK version) (DescribeAclsResource29.decode version) :=
  (KStep.field)
    |>.andThen (KStep.field)
    |>.andThen (KStep.onlyIf (KStep.field))
    |>.andThen (KStep.structs (fun _ => rfl) (AclDescription29.sameK version {}))
theorem DescribeAclsResource29.cutsK (version : Int16) (t : DescribeAclsResource29) (h : t.Fits version) :
    Cuts (DescribeAclsResource29.decodeK version) 0 (DescribeAclsResource29.wire version t) (DescribeAclsResource29.ends version t 3) (DescribeAclsResource29.cutAt version t 0) (DescribeAclsResource29.cutAt version t 4) :=
  (.field (reads_int8 t.«Type») (fun _ => rfl) (fun _ => rfl) : Cuts _ 0 _ (DescribeAclsResource29.ends version t 0) (DescribeAclsResource29.cutAt version t 0) (DescribeAclsResource29.cutAt version t 1))
    |>.andThen (.field (reads_string h.Name) (fun _ => rfl) (fun _ => rfl) : Cuts _ (DescribeAclsResource29.ends version t 0) _ (DescribeAclsResource29.ends version t 1) (DescribeAclsResource29.cutAt version t 1) (DescribeAclsResource29.cutAt version t 2))
    |>.andThen (.optField (fun _ => reads_int8 t.PatternType) (fun _ => rfl) (fun _ => rfl) : Cuts _ (DescribeAclsResource29.ends version t 1) _ (DescribeAclsResource29.ends version t 2) (DescribeAclsResource29.cutAt version t 2) (DescribeAclsResource29.cutAt version t 3))
    |>.andThen (.structs (AclDescription29.sameK version {}) (fun x hx => AclDescription29.reads version x hx {}) h.Acls (fun _ => rfl) (fun _ => rfl) : Cuts _ (DescribeAclsResource29.ends version t 2) _ (DescribeAclsResource29.ends version t 3) (DescribeAclsResource29.cutAt version t 3) (DescribeAclsResource29.cutAt version t 4))
theorem DescribeAclsResource29.partsK (version : Int16) : Parts (DescribeAclsResource29.decodeK version) (DescribeAclsResource29.first 0) (DescribeAclsResource29.first 4) (fun r y => ((((r = DescribeAclsResource29.first 0 y) ∨ (r = DescribeAclsResource29.first 1 y)) ∨ (r = DescribeAclsResource29.first 2 y)) ∨ (r = DescribeAclsResource29.first 3 y ∨ Cut.begun {} (fun t => t.Acls) (fun t x => { t with Acls := x }) (DescribeAclsResource29.first 3) r y))) :=
  (.field Longer.int8 (fun _ => rfl) (fun _ _ => rfl) (fun _ _ => rfl) (fun _ => rfl) : Parts (KDec.field Dec.int8 0 (fun t x => { t with «Type» := x })) (DescribeAclsResource29.first 0) (DescribeAclsResource29.first 1) (fun r y => r = DescribeAclsResource29.first 0 y))
    |>.andThen (.field Longer.string (fun _ => rfl) (fun _ _ => rfl) (fun _ _ => rfl) (fun _ => rfl) : Parts (KDec.field Dec.string [] (fun t x => { t with Name := x })) (DescribeAclsResource29.first 1) (DescribeAclsResource29.first 2) (fun r y => r = DescribeAclsResource29.first 1 y))
    |>.andThen (.onlyIf (.field Longer.int8 (fun _ => rfl) (fun _ _ => rfl) (fun _ _ => rfl) (fun _ => rfl)) (fun _ => rfl) : Parts (KDec.onlyIf (version ≥ 1) (KDec.field Dec.int8 0 (fun t x => { t with PatternType := x }))) (DescribeAclsResource29.first 2) (DescribeAclsResource29.first 3) (fun r y => r = DescribeAclsResource29.first 2 y))
    |>.andThen (.structs (get := fun (t : DescribeAclsResource29) => t.Acls) ((AclDescription29.partsK version).longer {}) (fun _ => rfl) (fun _ => rfl) (fun _ _ => rfl) (fun _ _ => rfl) (fun _ _ => rfl) (fun _ => rfl) (fun _ => rfl) : Parts (KDec.fieldStructs (AclDescription29.decodeK version {}) {} (fun t x => { t with Acls := x })) (DescribeAclsResource29.first 3) (DescribeAclsResource29.first 4) (fun r y => r = DescribeAclsResource29.first 3 y ∨ Cut.begun {} (fun t => t.Acls) (fun t x => { t with Acls := x }) (DescribeAclsResource29.first 3) r y))
theorem DescribeAclsResource29.filled (version : Int16) : FilledStep 8 12884934666 (DescribeAclsResource29.decode version) :=
  ((FilledStep.field .int8)
    |>.andThen (FilledStep.field .string)
    |>.andThen (FilledStep.onlyIf (FilledStep.field .int8))
    |>.andThen (FilledStep.structs (AclDescription29.filled version {}))).mono (by decide) (by decide)
theorem DescribeAclsResource29.part_of (r y : DescribeAclsResource29) (h : ((((r = DescribeAclsResource29.first 0 y) ∨ (r = DescribeAclsResource29.first 1 y)) ∨ (r = DescribeAclsResource29.first 2 y)) ∨ (r = DescribeAclsResource29.first 3 y ∨ Cut.begun {} (fun t => t.Acls) (fun t x => { t with Acls := x }) (DescribeAclsResource29.first 3) r y))) : DescribeAclsResource29.Part r y :=
  match h with
    | (.inl (.inl (.inl h))) => .inl ⟨0, by decide, h⟩
    | (.inl (.inl (.inr h))) => .inl ⟨1, by decide, h⟩
    | (.inl (.inr h)) => .inl ⟨2, by decide, h⟩
    | (.inr (.inl h)) => .inl ⟨3, by decide, h⟩
    | (.inr (.inr h)) => (.inr h)
theorem DescribeAclsResource29.keeps_holds : DescribeAclsResource29.keeps.Holds DescribeAclsResource29.layout :=
  KeptMsg.holds DescribeAclsResource29.lawful DescribeAclsResource29.sameK (stop := fun v t => DescribeAclsResource29.ends v t 3) (c := fun v t => DescribeAclsResource29.cutAt v t 0) (fun _ _ _ => rfl) DescribeAclsResource29.cutsK (c0 := DescribeAclsResource29.first 0) rfl DescribeAclsResource29.partsK DescribeAclsResource29.part_of DescribeAclsResource29.filled (by decide) (by decide)

/-- message/messages.gen.go:7766-7794 `DescribeAclsResponse.Decode`, with the receiver kept -/
def DescribeAclsResponse.decodeK (version : Int16) : KDec DescribeAclsResponse :=
    KDec.field Dec.int32 0 (fun t x => { t with ThrottleTimeMs := x }) ;|>
    KDec.field Dec.int16 0 (fun t x => { t with ErrorCode := x }) ;|>
    KDec.field Dec.string [] (fun t x => { t with ErrorMessage := x }) ;|>
    KDec.fieldStructs (DescribeAclsResource29.decodeK version {}) {} (fun t x => { t with Resources := x })

/-- Where the fields of `DescribeAclsResponse` end. -/
def DescribeAclsResponse.ends (version : Int16) (t : DescribeAclsResponse) : Nat → Nat :=
  Cut.ends 0 [Wire.int32 t.ThrottleTimeMs,
    Wire.int16 t.ErrorCode,
    Wire.string t.ErrorMessage,
    Wire.array (DescribeAclsResource29.wire version) t.Resources]

/-- What is left of `t` if only its first `n` bytes are there. -/
def DescribeAclsResponse.cut (version : Int16) (n : Nat) (t : DescribeAclsResponse) : DescribeAclsResponse :=
  { ThrottleTimeMs := Cut.field n (t.ends version 0) t.ThrottleTimeMs 0,
    ErrorCode := Cut.field n (t.ends version 1) t.ErrorCode 0,
    ErrorMessage := Cut.field n (t.ends version 2) t.ErrorMessage [],
    Resources := Cut.array n (t.ends version 2) (DescribeAclsResource29.wire version) (fun x => x.seen version {}) {} t.Resources }

/-- The same after the first `k` statements of `Decode`. -/
def DescribeAclsResponse.cutAt (version : Int16) (t : DescribeAclsResponse) (k n : Nat) : DescribeAclsResponse :=
  { ThrottleTimeMs := upto k 0 (Cut.field n (t.ends version 0) t.ThrottleTimeMs 0) 0,
    ErrorCode := upto k 1 (Cut.field n (t.ends version 1) t.ErrorCode 0) 0,
    ErrorMessage := upto k 2 (Cut.field n (t.ends version 2) t.ErrorMessage []) [],
    Resources := upto k 3 (Cut.array n (t.ends version 2) (DescribeAclsResource29.wire version) (fun x => x.seen version {}) {} t.Resources) none }

/-- The first `k` fields of `y`, and zeros. -/
def DescribeAclsResponse.first (k : Nat) (y : DescribeAclsResponse) : DescribeAclsResponse :=
  { ThrottleTimeMs := upto k 0 y.ThrottleTimeMs 0,
    ErrorCode := upto k 1 y.ErrorCode 0,
    ErrorMessage := upto k 2 y.ErrorMessage [],
    Resources := upto k 3 y.Resources none }

/-- `r` is a beginning of `y`, and zeros. -/
def DescribeAclsResponse.Part (r y : DescribeAclsResponse) : Prop :=
  (∃ k, k < 4 ∧ r = y.first k) ∨
    Cut.begun {} (fun t => t.Resources) (fun t x => { t with Resources := x }) (DescribeAclsResponse.first 3) r y

/-- `DescribeAclsResponse` with its receiver kept. -/
def DescribeAclsResponse.keeps : KeptMsg DescribeAclsResponse.type := { decode := DescribeAclsResponse.decodeK, cut := DescribeAclsResponse.cut, Part := DescribeAclsResponse.Part }

theorem DescribeAclsResponse.sameK (version : Int16) : KStep (DescribeAclsResponse.decodeK version) (DescribeAclsResponse.decode version) :=
  (KStep.field)
    |>.andThen (KStep.field)
    |>.andThen (KStep.field)
    |>.andThen (KStep.structs (fun _ => rfl) (DescribeAclsResource29.sameK version {}))
theorem DescribeAclsResponse.cutsK (version : Int16) (t : DescribeAclsResponse) (h : t.Fits version) :
    Cuts (DescribeAclsResponse.decodeK version) 0 (DescribeAclsResponse.wire version t) (DescribeAclsResponse.ends version t 3) (DescribeAclsResponse.cutAt version t 0) (DescribeAclsResponse.cutAt version t 4) :=
  (.field (reads_int32 t.ThrottleTimeMs) (fun _ => rfl) (fun _ => rfl) : Cuts _ 0 _ (DescribeAclsResponse.ends version t 0) (DescribeAclsResponse.cutAt version t 0) (DescribeAclsResponse.cutAt version t 1))
    |>.andThen (.field (reads_int16 t.ErrorCode) (fun _ => rfl) (fun _ => rfl) : Cuts _ (DescribeAclsResponse.ends version t 0) _ (DescribeAclsResponse.ends version t 1) (DescribeAclsResponse.cutAt version t 1) (DescribeAclsResponse.cutAt version t 2))
    |>.andThen (.field (reads_string h.ErrorMessage) (fun _ => rfl) (fun _ => rfl) : Cuts _ (DescribeAclsResponse.ends version t 1) _ (DescribeAclsResponse.ends version t 2) (DescribeAclsResponse.cutAt version t 2) (DescribeAclsResponse.cutAt version t 3))
    |>.andThen (.structs (DescribeAclsResource29.sameK version {}) (fun x hx => DescribeAclsResource29.reads version x hx {}) h.Resources (fun _ => rfl) (fun _ => rfl) : Cuts _ (DescribeAclsResponse.ends version t 2) _ (DescribeAclsResponse.ends version t 3) (DescribeAclsResponse.cutAt version t 3) (DescribeAclsResponse.cutAt version t 4))
theorem DescribeAclsResponse.partsK (version : Int16) : Parts (DescribeAclsResponse.decodeK version) (DescribeAclsResponse.first 0) (DescribeAclsResponse.first 4) (fun r y => ((((r = DescribeAclsResponse.first 0 y) ∨ (r = DescribeAclsResponse.first 1 y)) ∨ (r = DescribeAclsResponse.first 2 y)) ∨ (r = DescribeAclsResponse.first 3 y ∨ Cut.begun {} (fun t => t.Resources) (fun t x => { t with Resources := x }) (DescribeAclsResponse.first 3) r y))) :=
  (.field Longer.int32 (fun _ => rfl) (fun _ _ => rfl) (fun _ _ => rfl) (fun _ => rfl) : Parts (KDec.field Dec.int32 0 (fun t x => { t with ThrottleTimeMs := x })) (DescribeAclsResponse.first 0) (DescribeAclsResponse.first 1) (fun r y => r = DescribeAclsResponse.first 0 y))
    |>.andThen (.field Longer.int16 (fun _ => rfl) (fun _ _ => rfl) (fun _ _ => rfl) (fun _ => rfl) : Parts (KDec.field Dec.int16 0 (fun t x => { t with ErrorCode := x })) (DescribeAclsResponse.first 1) (DescribeAclsResponse.first 2) (fun r y => r = DescribeAclsResponse.first 1 y))
    |>.andThen (.field Longer.string (fun _ => rfl) (fun _ _ => rfl) (fun _ _ => rfl) (fun _ => rfl) : Parts (KDec.field Dec.string [] (fun t x => { t with ErrorMessage := x })) (DescribeAclsResponse.first 2) (DescribeAclsResponse.first 3) (fun r y => r = DescribeAclsResponse.first 2 y))
    |>.andThen (.structs (get := fun (t : DescribeAclsResponse) => t.Resources) ((DescribeAclsResource29.partsK version).longer {}) (fun _ => rfl) (fun _ => rfl) (fun _ _ => rfl) (fun _ _ => rfl) (fun _ _ => rfl) (fun _ => rfl) (fun _ => rfl) : Parts (KDec.fieldStructs (DescribeAclsResource29.decodeK version {}) {} (fun t x => { t with Resources := x })) (DescribeAclsResponse.first 3) (DescribeAclsResponse.first 4) (fun r y => r = DescribeAclsResponse.first 3 y ∨ Cut.begun {} (fun t => t.Resources) (fun t x => { t with Resources := x }) (DescribeAclsResponse.first 3) r y))
theorem DescribeAclsResponse.filled (version : Int16) : FilledStep 12 30064803854 (DescribeAclsResponse.decode version) :=
  ((FilledStep.field .int32)
    |>.andThen (FilledStep.field .int16)
    |>.andThen (FilledStep.field .string)
    |>.andThen (FilledStep.structs (DescribeAclsResource29.filled version {}))).mono (by decide) (by decide)
theorem DescribeAclsResponse.part_of (r y : DescribeAclsResponse) (h : ((((r = DescribeAclsResponse.first 0 y) ∨ (r = DescribeAclsResponse.first 1 y)) ∨ (r = DescribeAclsResponse.first 2 y)) ∨ (r = DescribeAclsResponse.first 3 y ∨ Cut.begun {} (fun t => t.Resources) (fun t x => { t with Resources := x }) (DescribeAclsResponse.first 3) r y))) : DescribeAclsResponse.Part r y :=
  match h with
    | (.inl (.inl (.inl h))) => .inl ⟨0, by decide, h⟩
    | (.inl (.inl (.inr h))) => .inl ⟨1, by decide, h⟩
    | (.inl (.inr h)) => .inl ⟨2, by decide, h⟩
    | (.inr (.inl h)) => .inl ⟨3, by decide, h⟩
    | (.inr (.inr h)) => (.inr h)
theorem DescribeAclsResponse.keeps_holds : DescribeAclsResponse.keeps.Holds DescribeAclsResponse.layout :=
  KeptMsg.holds DescribeAclsResponse.lawful DescribeAclsResponse.sameK (stop := fun v t => DescribeAclsResponse.ends v t 3) (c := fun v t => DescribeAclsResponse.cutAt v t 0) (fun _ _ _ => rfl) DescribeAclsResponse.cutsK (c0 := DescribeAclsResponse.first 0) rfl DescribeAclsResponse.partsK DescribeAclsResponse.part_of DescribeAclsResponse.filled (by decide) (by decide)

/-- The structures of the DescribeAcls messages. -/
def keptDescribeAcls : List (Σ (M : MsgType) (_ : Layout M), KeptMsg M) :=
  [⟨DescribeAclsRequest.type, DescribeAclsRequest.layout, DescribeAclsRequest.keeps⟩,
   ⟨DescribeAclsResponse.type, DescribeAclsResponse.layout, DescribeAclsResponse.keeps⟩,
   ⟨DescribeAclsResource29.type, DescribeAclsResource29.layout, DescribeAclsResource29.keeps⟩,
   ⟨AclDescription29.type, AclDescription29.layout, AclDescription29.keeps⟩]
theorem keptDescribeAcls_holds : ∀ p ∈ keptDescribeAcls, p.2.2.Holds p.2.1 := by
  unfold keptDescribeAcls
  simp only [List.forall_mem_cons]
  exact ⟨DescribeAclsRequest.keeps_holds, DescribeAclsResponse.keeps_holds, DescribeAclsResource29.keeps_holds, AclDescription29.keeps_holds, fun _ h => absurd h (by simp)⟩

end Kafka.Msg
