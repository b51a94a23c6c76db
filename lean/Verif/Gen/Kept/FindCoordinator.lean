import Verif.Message.KeptLemmas
import Verif.Gen.Proof.FindCoordinator
/-!
Generated by tools/gen_messages.py: what is in the FindCoordinator messages after an error.
-/
set_option linter.unusedVariables false
namespace Kafka.Msg

/-- message/messages.gen.go:3922-3935 `FindCoordinatorRequest.Decode`, with the receiver kept -/
def FindCoordinatorRequest.decodeK (version : Int16) : KDec FindCoordinatorRequest :=
    KDec.field Dec.string [] (fun t x => { t with Key := x }) ;|>
    KDec.onlyIf (version ≥ 1) (KDec.field Dec.int8 0 (fun t x => { t with KeyType := x }))

/-- Where the fields of `FindCoordinatorRequest` end. -/
def FindCoordinatorRequest.ends (version : Int16) (t : FindCoordinatorRequest) : Nat → Nat :=
  Cut.ends 0 [Wire.string t.Key,
    Wire.when (version ≥ 1) (Wire.int8 t.KeyType)]

/-- What is left of `t` if only its first `n` bytes are there. -/
def FindCoordinatorRequest.cut (version : Int16) (n : Nat) (t : FindCoordinatorRequest) : FindCoordinatorRequest :=
  { Key := Cut.field n (t.ends version 0) t.Key [],
    KeyType := Cut.gate (version ≥ 1) (Cut.field n (t.ends version 1) t.KeyType 0) 0 }

/-- The same after the first `k` statements of `Decode`. -/
def FindCoordinatorRequest.cutAt (version : Int16) (t : FindCoordinatorRequest) (k n : Nat) : FindCoordinatorRequest :=
  { Key := upto k 0 (Cut.field n (t.ends version 0) t.Key []) [],
    KeyType := upto k 1 (Cut.gate (version ≥ 1) (Cut.field n (t.ends version 1) t.KeyType 0) 0) 0 }

/-- The first `k` fields of `y`, and zeros. -/
def FindCoordinatorRequest.first (k : Nat) (y : FindCoordinatorRequest) : FindCoordinatorRequest :=
  { Key := upto k 0 y.Key [],
    KeyType := upto k 1 y.KeyType 0 }

/-- `r` is a beginning of `y`, and zeros. -/
def FindCoordinatorRequest.Part (r y : FindCoordinatorRequest) : Prop :=
  (∃ k, k < 2 ∧ r = y.first k)

/-- `FindCoordinatorRequest` with its receiver kept. -/
def FindCoordinatorRequest.keeps : KeptMsg FindCoordinatorRequest.type := { decode := FindCoordinatorRequest.decodeK, cut := FindCoordinatorRequest.cut, Part := FindCoordinatorRequest.Part }

theorem FindCoordinatorRequest.sameK (version : Int16) : KStep (FindCoordinatorRequest.decodeK version) (FindCoordinatorRequest.decode version) :=
  (KStep.field)
    |>.andThen (KStep.onlyIf (KStep.field))
theorem FindCoordinatorRequest.cutsK (version : Int16) (t : FindCoordinatorRequest) (h : t.Fits version) :
    Cuts (FindCoordinatorRequest.decodeK version) 0 (FindCoordinatorRequest.wire version t) (FindCoordinatorRequest.ends version t 1) (FindCoordinatorRequest.cutAt version t 0) (FindCoordinatorRequest.cutAt version t 2) :=
  (.field (reads_string h.Key) (fun _ => rfl) (fun _ => rfl) : Cuts _ 0 _ (FindCoordinatorRequest.ends version t 0) (FindCoordinatorRequest.cutAt version t 0) (FindCoordinatorRequest.cutAt version t 1))
    |>.andThen (.optField (fun _ => reads_int8 t.KeyType) (fun _ => rfl) (fun _ => rfl) : Cuts _ (FindCoordinatorRequest.ends version t 0) _ (FindCoordinatorRequest.ends version t 1) (FindCoordinatorRequest.cutAt version t 1) (FindCoordinatorRequest.cutAt version t 2))
theorem FindCoordinatorRequest.partsK (version : Int16) : Parts (FindCoordinatorRequest.decodeK version) (FindCoordinatorRequest.first 0) (FindCoordinatorRequest.first 2) (fun r y => ((r = FindCoordinatorRequest.first 0 y) ∨ (r = FindCoordinatorRequest.first 1 y))) :=
  (.field Longer.string (fun _ => rfl) (fun _ _ => rfl) (fun _ _ => rfl) (fun _ => rfl) : Parts (KDec.field Dec.string [] (fun t x => { t with Key := x })) (FindCoordinatorRequest.first 0) (FindCoordinatorRequest.first 1) (fun r y => r = FindCoordinatorRequest.first 0 y))
    |>.andThen (.onlyIf (.field Longer.int8 (fun _ => rfl) (fun _ _ => rfl) (fun _ _ => rfl) (fun _ => rfl)) (fun _ => rfl) : Parts (KDec.onlyIf (version ≥ 1) (KDec.field Dec.int8 0 (fun t x => { t with KeyType := x }))) (FindCoordinatorRequest.first 1) (FindCoordinatorRequest.first 2) (fun r y => r = FindCoordinatorRequest.first 1 y))
theorem FindCoordinatorRequest.filled (version : Int16) : FilledStep 3 32771 (FindCoordinatorRequest.decode version) :=
  ((FilledStep.field .string)
    |>.andThen (FilledStep.onlyIf (FilledStep.field .int8))).mono (by decide) (by decide)
theorem FindCoordinatorRequest.part_of (r y : FindCoordinatorRequest) (h : ((r = FindCoordinatorRequest.first 0 y) ∨ (r = FindCoordinatorRequest.first 1 y))) : FindCoordinatorRequest.Part r y :=
  match h with
    | (.inl h) => ⟨0, by decide, h⟩
    | (.inr h) => ⟨1, by decide, h⟩
theorem FindCoordinatorRequest.keeps_holds : FindCoordinatorRequest.keeps.Holds FindCoordinatorRequest.layout :=
  KeptMsg.holds FindCoordinatorRequest.lawful FindCoordinatorRequest.sameK (stop := fun v t => FindCoordinatorRequest.ends v t 1) (c := fun v t => FindCoordinatorRequest.cutAt v t 0) (fun _ _ _ => rfl) FindCoordinatorRequest.cutsK (c0 := FindCoordinatorRequest.first 0) rfl FindCoordinatorRequest.partsK FindCoordinatorRequest.part_of FindCoordinatorRequest.filled (by decide) (by decide)

/-- message/messages.gen.go:3978-4009 `FindCoordinatorResponse.Decode`, with the receiver kept -/
def FindCoordinatorResponse.decodeK (version : Int16) : KDec FindCoordinatorResponse :=
    KDec.onlyIf (version ≥ 1) (KDec.field Dec.int32 0 (fun t x => { t with ThrottleTimeMs := x })) ;|>
    KDec.field Dec.int16 0 (fun t x => { t with ErrorCode := x }) ;|>
    KDec.onlyIf (version ≥ 1) (KDec.field Dec.string [] (fun t x => { t with ErrorMessage := x })) ;|>
    KDec.field Dec.int32 0 (fun t x => { t with NodeId := x }) ;|>
    KDec.field Dec.string [] (fun t x => { t with Host := x }) ;|>
    KDec.field Dec.int32 0 (fun t x => { t with Port := x })

/-- Where the fields of `FindCoordinatorResponse` end. -/
def FindCoordinatorResponse.ends (version : Int16) (t : FindCoordinatorResponse) : Nat → Nat :=
  Cut.ends 0 [Wire.when (version ≥ 1) (Wire.int32 t.ThrottleTimeMs),
    Wire.int16 t.ErrorCode,
    Wire.when (version ≥ 1) (Wire.string t.ErrorMessage),
    Wire.int32 t.NodeId,
    Wire.string t.Host,
    Wire.int32 t.Port]

/-- What is left of `t` if only its first `n` bytes are there. -/
def FindCoordinatorResponse.cut (version : Int16) (n : Nat) (t : FindCoordinatorResponse) : FindCoordinatorResponse :=
  { ThrottleTimeMs := Cut.gate (version ≥ 1) (Cut.field n (t.ends version 0) t.ThrottleTimeMs 0) 0,
    ErrorCode := Cut.field n (t.ends version 1) t.ErrorCode 0,
    ErrorMessage := Cut.gate (version ≥ 1) (Cut.field n (t.ends version 2) t.ErrorMessage []) [],
    NodeId := Cut.field n (t.ends version 3) t.NodeId 0,
    Host := Cut.field n (t.ends version 4) t.Host [],
    Port := Cut.field n (t.ends version 5) t.Port 0 }

/-- The same after the first `k` statements of `Decode`. -/
def FindCoordinatorResponse.cutAt (version : Int16) (t : FindCoordinatorResponse) (k n : Nat) : FindCoordinatorResponse :=
  { ThrottleTimeMs := upto k 0 (Cut.gate (version ≥ 1) (Cut.field n (t.ends version 0) t.ThrottleTimeMs 0) 0) 0,
    ErrorCode := upto k 1 (Cut.field n (t.ends version 1) t.ErrorCode 0) 0,
    ErrorMessage := upto k 2 (Cut.gate (version ≥ 1) (Cut.field n (t.ends version 2) t.ErrorMessage []) []) [],
    NodeId := upto k 3 (Cut.field n (t.ends version 3) t.NodeId 0) 0,
    Host := upto k 4 (Cut.field n (t.ends version 4) t.Host []) [],
    Port := upto k 5 (Cut.field n (t.ends version 5) t.Port 0) 0 }

/-- The first `k` fields of `y`, and zeros. -/
def FindCoordinatorResponse.first (k : Nat) (y : FindCoordinatorResponse) : FindCoordinatorResponse :=
  { ThrottleTimeMs := upto k 0 y.ThrottleTimeMs 0,
    ErrorCode := upto k 1 y.ErrorCode 0,
    ErrorMessage := upto k 2 y.ErrorMessage [],
    NodeId := upto k 3 y.NodeId 0,
    Host := upto k 4 y.Host [],
    Port := upto k 5 y.Port 0 }

/-- `r` is a beginning of `y`, and zeros. -/
def FindCoordinatorResponse.Part (r y : FindCoordinatorResponse) : Prop :=
  (∃ k, k < 6 ∧ r = y.first k)

/-- `FindCoordinatorResponse` with its receiver kept. -/
def FindCoordinatorResponse.keeps : KeptMsg FindCoordinatorResponse.type := { decode := FindCoordinatorResponse.decodeK, cut := FindCoordinatorResponse.cut, Part := FindCoordinatorResponse.Part }

theorem FindCoordinatorResponse.sameK (version : Int16) : KStep (FindCoordinatorResponse.decodeK version) (FindCoordinatorResponse.decode version) :=
  (KStep.onlyIf (KStep.field))
    |>.andThen (KStep.field)
    |>.andThen (KStep.onlyIf (KStep.field))
    |>.andThen (KStep.field)
    |>.andThen (KStep.field)
    |>.andThen (KStep.field)
theorem FindCoordinatorResponse.cutsK (version : Int16) (t : FindCoordinatorResponse) (h : t.Fits version) :
    Cuts (FindCoordinatorResponse.decodeK version) 0 (FindCoordinatorResponse.wire version t) (FindCoordinatorResponse.ends version t 5) (FindCoordinatorResponse.cutAt version t 0) (FindCoordinatorResponse.cutAt version t 6) :=
  (.optField (fun _ => reads_int32 t.ThrottleTimeMs) (fun _ => rfl) (fun _ => rfl) : Cuts _ 0 _ (FindCoordinatorResponse.ends version t 0) (FindCoordinatorResponse.cutAt version t 0) (FindCoordinatorResponse.cutAt version t 1))
    |>.andThen (.field (reads_int16 t.ErrorCode) (fun _ => rfl) (fun _ => rfl) : Cuts _ (FindCoordinatorResponse.ends version t 0) _ (FindCoordinatorResponse.ends version t 1) (FindCoordinatorResponse.cutAt version t 1) (FindCoordinatorResponse.cutAt version t 2))
    |>.andThen (.optField (fun hc => reads_string (h.ErrorMessage hc)) (fun _ => rfl) (fun _ => rfl) : Cuts _ (FindCoordinatorResponse.ends version t 1) _ (FindCoordinatorResponse.ends version t 2) (FindCoordinatorResponse.cutAt version t 2) (FindCoordinatorResponse.cutAt version t 3))
    |>.andThen (.field (reads_int32 t.NodeId) (fun _ => rfl) (fun _ => rfl) : Cuts _ (FindCoordinatorResponse.ends version t 2) _ (FindCoordinatorResponse.ends version t 3) (FindCoordinatorResponse.cutAt version t 3) (FindCoordinatorResponse.cutAt version t 4))
    |>.andThen (.field (reads_string h.Host) (fun _ => rfl) (fun _ => rfl) : Cuts _ (FindCoordinatorResponse.ends version t 3) _ (FindCoordinatorResponse.ends version t 4) (FindCoordinatorResponse.cutAt version t 4) (FindCoordinatorResponse.cutAt version t 5))
    |>.andThen (.field (reads_int32 t.Port) (fun _ => rfl) (fun _ => rfl) : Cuts _ (FindCoordinatorResponse.ends version t 4) _ (FindCoordinatorResponse.ends version t 5) (FindCoordinatorResponse.cutAt version t 5) (FindCoordinatorResponse.cutAt version t 6))
theorem FindCoordinatorResponse.partsK (version : Int16) : Parts (FindCoordinatorResponse.decodeK version) (FindCoordinatorResponse.first 0) (FindCoordinatorResponse.first 6) (fun r y => ((((((r = FindCoordinatorResponse.first 0 y) ∨ (r = FindCoordinatorResponse.first 1 y)) ∨ (r = FindCoordinatorResponse.first 2 y)) ∨ (r = FindCoordinatorResponse.first 3 y)) ∨ (r = FindCoordinatorResponse.first 4 y)) ∨ (r = FindCoordinatorResponse.first 5 y))) :=
  (.onlyIf (.field Longer.int32 (fun _ => rfl) (fun _ _ => rfl) (fun _ _ => rfl) (fun _ => rfl)) (fun _ => rfl) : Parts (KDec.onlyIf (version ≥ 1) (KDec.field Dec.int32 0 (fun t x => { t with ThrottleTimeMs := x }))) (FindCoordinatorResponse.first 0) (FindCoordinatorResponse.first 1) (fun r y => r = FindCoordinatorResponse.first 0 y))
    |>.andThen (.field Longer.int16 (fun _ => rfl) (fun _ _ => rfl) (fun _ _ => rfl) (fun _ => rfl) : Parts (KDec.field Dec.int16 0 (fun t x => { t with ErrorCode := x })) (FindCoordinatorResponse.first 1) (FindCoordinatorResponse.first 2) (fun r y => r = FindCoordinatorResponse.first 1 y))
    |>.andThen (.onlyIf (.field Longer.string (fun _ => rfl) (fun _ _ => rfl) (fun _ _ => rfl) (fun _ => rfl)) (fun _ => rfl) : Parts (KDec.onlyIf (version ≥ 1) (KDec.field Dec.string [] (fun t x => { t with ErrorMessage := x }))) (FindCoordinatorResponse.first 2) (FindCoordinatorResponse.first 3) (fun r y => r = FindCoordinatorResponse.first 2 y))
    |>.andThen (.field Longer.int32 (fun _ => rfl) (fun _ _ => rfl) (fun _ _ => rfl) (fun _ => rfl) : Parts (KDec.field Dec.int32 0 (fun t x => { t with NodeId := x })) (FindCoordinatorResponse.first 3) (FindCoordinatorResponse.first 4) (fun r y => r = FindCoordinatorResponse.first 3 y))
    |>.andThen (.field Longer.string (fun _ => rfl) (fun _ _ => rfl) (fun _ _ => rfl) (fun _ => rfl) : Parts (KDec.field Dec.string [] (fun t x => { t with Host := x })) (FindCoordinatorResponse.first 4) (FindCoordinatorResponse.first 5) (fun r y => r = FindCoordinatorResponse.first 4 y))
    |>.andThen (.field Longer.int32 (fun _ => rfl) (fun _ _ => rfl) (fun _ _ => rfl) (fun _ => rfl) : Parts (KDec.field Dec.int32 0 (fun t x => { t with Port := x })) (FindCoordinatorResponse.first 5) (FindCoordinatorResponse.first 6) (fun r y => r = FindCoordinatorResponse.first 5 y))
theorem FindCoordinatorResponse.filled (version : Int16) : FilledStep 18 32780 (FindCoordinatorResponse.decode version) :=
  ((FilledStep.onlyIf (FilledStep.field .int32))
    |>.andThen (FilledStep.field .int16)
    |>.andThen (FilledStep.onlyIf (FilledStep.field .string))
    |>.andThen (FilledStep.field .int32)
    |>.andThen (FilledStep.field .string)
    |>.andThen (FilledStep.field .int32)).mono (by decide) (by decide)
theorem FindCoordinatorResponse.part_of (r y : FindCoordinatorResponse) (h : ((((((r = FindCoordinatorResponse.first 0 y) ∨ (r = FindCoordinatorResponse.first 1 y)) ∨ (r = FindCoordinatorResponse.first 2 y)) ∨ (r = FindCoordinatorResponse.first 3 y)) ∨ (r = FindCoordinatorResponse.first 4 y)) ∨ (r = FindCoordinatorResponse.first 5 y))) : FindCoordinatorResponse.Part r y :=
  match h with
    | (.inl (.inl (.inl (.inl (.inl h))))) => ⟨0, by decide, h⟩
    | (.inl (.inl (.inl (.inl (.inr h))))) => ⟨1, by decide, h⟩
    | (.inl (.inl (.inl (.inr h)))) => ⟨2, by decide, h⟩
    | (.inl (.inl (.inr h))) => ⟨3, by decide, h⟩
    | (.inl (.inr h)) => ⟨4, by decide, h⟩
    | (.inr h) => ⟨5, by decide, h⟩
theorem FindCoordinatorResponse.keeps_holds : FindCoordinatorResponse.keeps.Holds FindCoordinatorResponse.layout :=
  KeptMsg.holds FindCoordinatorResponse.lawful FindCoordinatorResponse.sameK (stop := fun v t => FindCoordinatorResponse.ends v t 5) (c := fun v t => FindCoordinatorResponse.cutAt v t 0) (fun _ _ _ => rfl) FindCoordinatorResponse.cutsK (c0 := FindCoordinatorResponse.first 0) rfl FindCoordinatorResponse.partsK FindCoordinatorResponse.part_of FindCoordinatorResponse.filled (by decide) (by decide)

/-- The structures of the FindCoordinator messages. -/
def keptFindCoordinator : List (Σ (M : MsgType) (_ : Layout M), KeptMsg M) :=
  [⟨FindCoordinatorRequest.type, FindCoordinatorRequest.layout, FindCoordinatorRequest.keeps⟩,
   ⟨FindCoordinatorResponse.type, FindCoordinatorResponse.layout, FindCoordinatorResponse.keeps⟩]
theorem keptFindCoordinator_holds : ∀ p ∈ keptFindCoordinator, p.2.2.Holds p.2.1 := by
  unfold keptFindCoordinator
  simp only [List.forall_mem_cons]
  exact ⟨FindCoordinatorRequest.keeps_holds, FindCoordinatorResponse.keeps_holds, fun _ h => absurd h (by simp)⟩

end Kafka.Msg
