import Verif.Message.KeptLemmas
import Verif.Gen.Proof.DeleteTopics
/-!
Generated by tools/gen_messages.py: what is in the DeleteTopics messages after an error.
-/
set_option linter.unusedVariables false
namespace Kafka.Msg

/-- message/messages.gen.go:5853-5864 `DeleteTopicsRequest.Decode`, with the receiver kept -/
def DeleteTopicsRequest.decodeK (_version : Int16) : KDec DeleteTopicsRequest :=
    KDec.field Dec.stringArray none (fun t x => { t with TopicNames := x }) ;|>
    KDec.field Dec.int32 0 (fun t x => { t with TimeoutMs := x })

/-- Where the fields of `DeleteTopicsRequest` end. -/
def DeleteTopicsRequest.ends (_version : Int16) (t : DeleteTopicsRequest) : Nat → Nat :=
  Cut.ends 0 [Wire.stringArray t.TopicNames,
    Wire.int32 t.TimeoutMs]

/-- What is left of `t` if only its first `n` bytes are there. -/
def DeleteTopicsRequest.cut (version : Int16) (n : Nat) (t : DeleteTopicsRequest) : DeleteTopicsRequest :=
  { TopicNames := Cut.field n (t.ends version 0) t.TopicNames none,
    TimeoutMs := Cut.field n (t.ends version 1) t.TimeoutMs 0 }

/-- The same after the first `k` statements of `Decode`. -/
def DeleteTopicsRequest.cutAt (version : Int16) (t : DeleteTopicsRequest) (k n : Nat) : DeleteTopicsRequest :=
  { TopicNames := upto k 0 (Cut.field n (t.ends version 0) t.TopicNames none) none,
    TimeoutMs := upto k 1 (Cut.field n (t.ends version 1) t.TimeoutMs 0) 0 }

/-- The first `k` fields of `y`, and zeros. -/
def DeleteTopicsRequest.first (k : Nat) (y : DeleteTopicsRequest) : DeleteTopicsRequest :=
  { TopicNames := upto k 0 y.TopicNames none,
    TimeoutMs := upto k 1 y.TimeoutMs 0 }

/-- `r` is a beginning of `y`, and zeros. -/
def DeleteTopicsRequest.Part (r y : DeleteTopicsRequest) : Prop :=
  (∃ k, k < 2 ∧ r = y.first k)

/-- `DeleteTopicsRequest` with its receiver kept. -/
def DeleteTopicsRequest.keeps : KeptMsg DeleteTopicsRequest.type := { decode := DeleteTopicsRequest.decodeK, cut := DeleteTopicsRequest.cut, Part := DeleteTopicsRequest.Part }

theorem DeleteTopicsRequest.sameK (version : Int16) : KStep (DeleteTopicsRequest.decodeK version) (DeleteTopicsRequest.decode version) :=
  (KStep.field)
    |>.andThen (KStep.field)
theorem DeleteTopicsRequest.cutsK (version : Int16) (t : DeleteTopicsRequest) (h : t.Fits version) :
    Cuts (DeleteTopicsRequest.decodeK version) 0 (DeleteTopicsRequest.wire version t) (DeleteTopicsRequest.ends version t 1) (DeleteTopicsRequest.cutAt version t 0) (DeleteTopicsRequest.cutAt version t 2) :=
  (.field (reads_stringArray h.TopicNames) (fun _ => rfl) (fun _ => rfl) : Cuts _ 0 _ (DeleteTopicsRequest.ends version t 0) (DeleteTopicsRequest.cutAt version t 0) (DeleteTopicsRequest.cutAt version t 1))
    |>.andThen (.field (reads_int32 t.TimeoutMs) (fun _ => rfl) (fun _ => rfl) : Cuts _ (DeleteTopicsRequest.ends version t 0) _ (DeleteTopicsRequest.ends version t 1) (DeleteTopicsRequest.cutAt version t 1) (DeleteTopicsRequest.cutAt version t 2))
theorem DeleteTopicsRequest.partsK (version : Int16) : Parts (DeleteTopicsRequest.decodeK version) (DeleteTopicsRequest.first 0) (DeleteTopicsRequest.first 2) (fun r y => ((r = DeleteTopicsRequest.first 0 y) ∨ (r = DeleteTopicsRequest.first 1 y))) :=
  (.field Longer.stringArray (fun _ => rfl) (fun _ _ => rfl) (fun _ _ => rfl) (fun _ => rfl) : Parts (KDec.field Dec.stringArray none (fun t x => { t with TopicNames := x })) (DeleteTopicsRequest.first 0) (DeleteTopicsRequest.first 1) (fun r y => r = DeleteTopicsRequest.first 0 y))
    |>.andThen (.field Longer.int32 (fun _ => rfl) (fun _ _ => rfl) (fun _ _ => rfl) (fun _ => rfl) : Parts (KDec.field Dec.int32 0 (fun t x => { t with TimeoutMs := x })) (DeleteTopicsRequest.first 1) (DeleteTopicsRequest.first 2) (fun r y => r = DeleteTopicsRequest.first 1 y))
theorem DeleteTopicsRequest.filled (version : Int16) : FilledStep 8 4295000074 (DeleteTopicsRequest.decode version) :=
  ((FilledStep.field .stringArray)
    |>.andThen (FilledStep.field .int32)).mono (by decide) (by decide)
theorem DeleteTopicsRequest.part_of (r y : DeleteTopicsRequest) (h : ((r = DeleteTopicsRequest.first 0 y) ∨ (r = DeleteTopicsRequest.first 1 y))) : DeleteTopicsRequest.Part r y :=
  match h with
    | (.inl h) => ⟨0, by decide, h⟩
    | (.inr h) => ⟨1, by decide, h⟩
theorem DeleteTopicsRequest.keeps_holds : DeleteTopicsRequest.keeps.Holds DeleteTopicsRequest.layout :=
  KeptMsg.holds DeleteTopicsRequest.lawful DeleteTopicsRequest.sameK (stop := fun v t => DeleteTopicsRequest.ends v t 1) (c := fun v t => DeleteTopicsRequest.cutAt v t 0) (fun _ _ _ => rfl) DeleteTopicsRequest.cutsK (c0 := DeleteTopicsRequest.first 0) rfl DeleteTopicsRequest.partsK DeleteTopicsRequest.part_of DeleteTopicsRequest.filled (by decide) (by decide)

/-- message/messages.gen.go:5943-5954 `DeletableTopicResult20.Decode`, with the receiver kept -/
def DeletableTopicResult20.decodeK (_version : Int16) : KDec DeletableTopicResult20 :=
    KDec.field Dec.string [] (fun t x => { t with Name := x }) ;|>
    KDec.field Dec.int16 0 (fun t x => { t with ErrorCode := x })

/-- Where the fields of `DeletableTopicResult20` end. -/
def DeletableTopicResult20.ends (_version : Int16) (t : DeletableTopicResult20) : Nat → Nat :=
  Cut.ends 0 [Wire.string t.Name,
    Wire.int16 t.ErrorCode]

/-- What is left of `t` if only its first `n` bytes are there. -/
def DeletableTopicResult20.cut (version : Int16) (n : Nat) (t : DeletableTopicResult20) : DeletableTopicResult20 :=
  { Name := Cut.field n (t.ends version 0) t.Name [],
    ErrorCode := Cut.field n (t.ends version 1) t.ErrorCode 0 }

/-- The same after the first `k` statements of `Decode`. -/
def DeletableTopicResult20.cutAt (version : Int16) (t : DeletableTopicResult20) (k n : Nat) : DeletableTopicResult20 :=
  { Name := upto k 0 (Cut.field n (t.ends version 0) t.Name []) [],
    ErrorCode := upto k 1 (Cut.field n (t.ends version 1) t.ErrorCode 0) 0 }

/-- The first `k` fields of `y`, and zeros. -/
def DeletableTopicResult20.first (k : Nat) (y : DeletableTopicResult20) : DeletableTopicResult20 :=
  { Name := upto k 0 y.Name [],
    ErrorCode := upto k 1 y.ErrorCode 0 }

/-- `r` is a beginning of `y`, and zeros. -/
def DeletableTopicResult20.Part (r y : DeletableTopicResult20) : Prop :=
  (∃ k, k < 2 ∧ r = y.first k)

/-- `DeletableTopicResult20` with its receiver kept. -/
def DeletableTopicResult20.keeps : KeptMsg DeletableTopicResult20.type := { decode := DeletableTopicResult20.decodeK, cut := DeletableTopicResult20.cut, Part := DeletableTopicResult20.Part }

theorem DeletableTopicResult20.sameK (version : Int16) : KStep (DeletableTopicResult20.decodeK version) (DeletableTopicResult20.decode version) :=
  (KStep.field)
    |>.andThen (KStep.field)
theorem DeletableTopicResult20.cutsK (version : Int16) (t : DeletableTopicResult20) (h : t.Fits version) :
    Cuts (DeletableTopicResult20.decodeK version) 0 (DeletableTopicResult20.wire version t) (DeletableTopicResult20.ends version t 1) (DeletableTopicResult20.cutAt version t 0) (DeletableTopicResult20.cutAt version t 2) :=
  (.field (reads_string h.Name) (fun _ => rfl) (fun _ => rfl) : Cuts _ 0 _ (DeletableTopicResult20.ends version t 0) (DeletableTopicResult20.cutAt version t 0) (DeletableTopicResult20.cutAt version t 1))
    |>.andThen (.field (reads_int16 t.ErrorCode) (fun _ => rfl) (fun _ => rfl) : Cuts _ (DeletableTopicResult20.ends version t 0) _ (DeletableTopicResult20.ends version t 1) (DeletableTopicResult20.cutAt version t 1) (DeletableTopicResult20.cutAt version t 2))
theorem DeletableTopicResult20.partsK (version : Int16) : Parts (DeletableTopicResult20.decodeK version) (DeletableTopicResult20.first 0) (DeletableTopicResult20.first 2) (fun r y => ((r = DeletableTopicResult20.first 0 y) ∨ (r = DeletableTopicResult20.first 1 y))) :=
  (.field Longer.string (fun _ => rfl) (fun _ _ => rfl) (fun _ _ => rfl) (fun _ => rfl) : Parts (KDec.field Dec.string [] (fun t x => { t with Name := x })) (DeletableTopicResult20.first 0) (DeletableTopicResult20.first 1) (fun r y => r = DeletableTopicResult20.first 0 y))
    |>.andThen (.field Longer.int16 (fun _ => rfl) (fun _ _ => rfl) (fun _ _ => rfl) (fun _ => rfl) : Parts (KDec.field Dec.int16 0 (fun t x => { t with ErrorCode := x })) (DeletableTopicResult20.first 1) (DeletableTopicResult20.first 2) (fun r y => r = DeletableTopicResult20.first 1 y))
theorem DeletableTopicResult20.filled (version : Int16) : FilledStep 4 32772 (DeletableTopicResult20.decode version) :=
  ((FilledStep.field .string)
    |>.andThen (FilledStep.field .int16)).mono (by decide) (by decide)
theorem DeletableTopicResult20.part_of (r y : DeletableTopicResult20) (h : ((r = DeletableTopicResult20.first 0 y) ∨ (r = DeletableTopicResult20.first 1 y))) : DeletableTopicResult20.Part r y :=
  match h with
    | (.inl h) => ⟨0, by decide, h⟩
    | (.inr h) => ⟨1, by decide, h⟩
theorem DeletableTopicResult20.keeps_holds : DeletableTopicResult20.keeps.Holds DeletableTopicResult20.layout :=
  KeptMsg.holds DeletableTopicResult20.lawful DeletableTopicResult20.sameK (stop := fun v t => DeletableTopicResult20.ends v t 1) (c := fun v t => DeletableTopicResult20.cutAt v t 0) (fun _ _ _ => rfl) DeletableTopicResult20.cutsK (c0 := DeletableTopicResult20.first 0) rfl DeletableTopicResult20.partsK DeletableTopicResult20.part_of DeletableTopicResult20.filled (by decide) (by decide)

/-- message/messages.gen.go:5899-5921 `DeleteTopicsResponse.Decode`, with the receiver kept -/
def DeleteTopicsResponse.decodeK (version : Int16) : KDec DeleteTopicsResponse :=
    KDec.onlyIf (version ≥ 1) (KDec.field Dec.int32 0 (fun t x => { t with ThrottleTimeMs := x })) ;|>
    KDec.fieldStructs (DeletableTopicResult20.decodeK version {}) {} (fun t x => { t with Responses := x })

/-- Where the fields of `DeleteTopicsResponse` end. -/
def DeleteTopicsResponse.ends (version : Int16) (t : DeleteTopicsResponse) : Nat → Nat :=
  Cut.ends 0 [Wire.when (version ≥ 1) (Wire.int32 t.ThrottleTimeMs),
    Wire.array (DeletableTopicResult20.wire version) t.Responses]

/-- What is left of `t` if only its first `n` bytes are there. -/
def DeleteTopicsResponse.cut (version : Int16) (n : Nat) (t : DeleteTopicsResponse) : DeleteTopicsResponse :=
  { ThrottleTimeMs := Cut.gate (version ≥ 1) (Cut.field n (t.ends version 0) t.ThrottleTimeMs 0) 0,
    Responses := Cut.array n (t.ends version 0) (DeletableTopicResult20.wire version) (fun x => x.seen version {}) {} t.Responses }

/-- The same after the first `k` statements of `Decode`. -/
def DeleteTopicsResponse.cutAt (version : Int16) (t : DeleteTopicsResponse) (k n : Nat) : DeleteTopicsResponse :=
  { ThrottleTimeMs := upto k 0 (Cut.gate (version ≥ 1) (Cut.field n (t.ends version 0) t.ThrottleTimeMs 0) 0) 0,
    Responses := upto k 1 (Cut.array n (t.ends version 0) (DeletableTopicResult20.wire version) (fun x => x.seen version {}) {} t.Responses) none }

/-- The first `k` fields of `y`, and zeros. -/
def DeleteTopicsResponse.first (k : Nat) (y : DeleteTopicsResponse) : DeleteTopicsResponse :=
  { ThrottleTimeMs := upto k 0 y.ThrottleTimeMs 0,
    Responses := upto k 1 y.Responses none }

/-- `r` is a beginning of `y`, and zeros. -/
def DeleteTopicsResponse.Part (r y : DeleteTopicsResponse) : Prop :=
  (∃ k, k < 2 ∧ r = y.first k) ∨
    Cut.begun {} (fun t => t.Responses) (fun t x => { t with Responses := x }) (DeleteTopicsResponse.first 1) r y

/-- `DeleteTopicsResponse` with its receiver kept. -/
def DeleteTopicsResponse.keeps : KeptMsg DeleteTopicsResponse.type := { decode := DeleteTopicsResponse.decodeK, cut := DeleteTopicsResponse.cut, Part := DeleteTopicsResponse.Part }

theorem DeleteTopicsResponse.sameK (version : Int16) : KStep (DeleteTopicsResponse.decodeK version) (DeleteTopicsResponse.decode version) :=
  (KStep.onlyIf (KStep.field))
    |>.andThen (KStep.structs (fun _ => rfl) (DeletableTopicResult20.sameK version {}))
theorem DeleteTopicsResponse.cutsK (version : Int16) (t : DeleteTopicsResponse) (h : t.Fits version) :
    Cuts (DeleteTopicsResponse.decodeK version) 0 (DeleteTopicsResponse.wire version t) (DeleteTopicsResponse.ends version t 1) (DeleteTopicsResponse.cutAt version t 0) (DeleteTopicsResponse.cutAt version t 2) :=
  (.optField (fun _ => reads_int32 t.ThrottleTimeMs) (fun _ => rfl) (fun _ => rfl) : Cuts _ 0 _ (DeleteTopicsResponse.ends version t 0) (DeleteTopicsResponse.cutAt version t 0) (DeleteTopicsResponse.cutAt version t 1))
    |>.andThen (.structs (DeletableTopicResult20.sameK version {}) (fun x hx => DeletableTopicResult20.reads version x hx {}) h.Responses (fun _ => rfl) (fun _ => rfl) : Cuts _ (DeleteTopicsResponse.ends version t 0) _ (DeleteTopicsResponse.ends version t 1) (DeleteTopicsResponse.cutAt version t 1) (DeleteTopicsResponse.cutAt version t 2))
theorem DeleteTopicsResponse.partsK (version : Int16) : Parts (DeleteTopicsResponse.decodeK version) (DeleteTopicsResponse.first 0) (DeleteTopicsResponse.first 2) (fun r y => ((r = DeleteTopicsResponse.first 0 y) ∨ (r = DeleteTopicsResponse.first 1 y ∨ Cut.begun {} (fun t => t.Responses) (fun t x => { t with Responses := x }) (DeleteTopicsResponse.first 1) r y))) :=
  (.onlyIf (.field Longer.int32 (fun _ => rfl) (fun _ _ => rfl) (fun _ _ => rfl) (fun _ => rfl)) (fun _ => rfl) : Parts (KDec.onlyIf (version ≥ 1) (KDec.field Dec.int32 0 (fun t x => { t with ThrottleTimeMs := x }))) (DeleteTopicsResponse.first 0) (DeleteTopicsResponse.first 1) (fun r y => r = DeleteTopicsResponse.first 0 y))
    |>.andThen (.structs (get := fun (t : DeleteTopicsResponse) => t.Responses) ((DeletableTopicResult20.partsK version).longer {}) (fun _ => rfl) (fun _ => rfl) (fun _ _ => rfl) (fun _ _ => rfl) (fun _ _ => rfl) (fun _ => rfl) (fun _ => rfl) : Parts (KDec.fieldStructs (DeletableTopicResult20.decodeK version {}) {} (fun t x => { t with Responses := x })) (DeleteTopicsResponse.first 1) (DeleteTopicsResponse.first 2) (fun r y => r = DeleteTopicsResponse.first 1 y ∨ Cut.begun {} (fun t => t.Responses) (fun t x => { t with Responses := x }) (DeleteTopicsResponse.first 1) r y))
theorem DeleteTopicsResponse.filled (version : Int16) : FilledStep 8 8589967368 (DeleteTopicsResponse.decode version) :=
  ((FilledStep.onlyIf (FilledStep.field .int32))
    |>.andThen (FilledStep.structs (DeletableTopicResult20.filled version {}))).mono (by decide) (by decide)
theorem DeleteTopicsResponse.part_of (r y : DeleteTopicsResponse) (h : ((r = DeleteTopicsResponse.first 0 y) ∨ (r = DeleteTopicsResponse.first 1 y ∨ Cut.begun {} (fun t => t.Responses) (fun t x => { t with Responses := x }) (DeleteTopicsResponse.first 1) r y))) : DeleteTopicsResponse.Part r y :=
  match h with
    | (.inl h) => .inl ⟨0, by decide, h⟩
    | (.inr (.inl h)) => .inl ⟨1, by decide, h⟩
    | (.inr (.inr h)) => (.inr h)
theorem DeleteTopicsResponse.keeps_holds : DeleteTopicsResponse.keeps.Holds DeleteTopicsResponse.layout :=
  KeptMsg.holds DeleteTopicsResponse.lawful DeleteTopicsResponse.sameK (stop := fun v t => DeleteTopicsResponse.ends v t 1) (c := fun v t => DeleteTopicsResponse.cutAt v t 0) (fun _ _ _ => rfl) DeleteTopicsResponse.cutsK (c0 := DeleteTopicsResponse.first 0) rfl DeleteTopicsResponse.partsK DeleteTopicsResponse.part_of DeleteTopicsResponse.filled (by decide) (by decide)

/-- The structures of the DeleteTopics messages. -/
def keptDeleteTopics : List (Σ (M : MsgType) (_ : Layout M), KeptMsg M) :=
  [⟨DeleteTopicsRequest.type, DeleteTopicsRequest.layout, DeleteTopicsRequest.keeps⟩,
   ⟨DeleteTopicsResponse.type, DeleteTopicsResponse.layout, DeleteTopicsResponse.keeps⟩,
   ⟨DeletableTopicResult20.type, DeletableTopicResult20.layout, DeletableTopicResult20.keeps⟩]
theorem keptDeleteTopics_holds : ∀ p ∈ keptDeleteTopics, p.2.2.Holds p.2.1 := by
  unfold keptDeleteTopics
  simp only [List.forall_mem_cons]
  exact ⟨DeleteTopicsRequest.keeps_holds, DeleteTopicsResponse.keeps_holds, DeletableTopicResult20.keeps_holds, fun _ h => absurd h (by simp)⟩

end Kafka.Msg
