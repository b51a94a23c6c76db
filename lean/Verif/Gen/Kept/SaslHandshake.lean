import Verif.Message.KeptLemmas
import Verif.Gen.Proof.SaslHandshake
/-!
Generated by tools/gen_messages.py: what is in the SaslHandshake messages after an error.
-/
set_option linter.unusedVariables false
namespace Kafka.Msg

/-- message/messages.gen.go:5165-5172 `SaslHandshakeRequest.Decode`, with the receiver kept -/
def SaslHandshakeRequest.decodeK (_version : Int16) : KDec SaslHandshakeRequest :=
    KDec.field Dec.string [] (fun t x => { t with Mechanism := x })

/-- Where the fields of `SaslHandshakeRequest` end. -/
def SaslHandshakeRequest.ends (_version : Int16) (t : SaslHandshakeRequest) : Nat → Nat :=
  Cut.ends 0 [Wire.string t.Mechanism]

/-- What is left of `t` if only its first `n` bytes are there. -/
def SaslHandshakeRequest.cut (version : Int16) (n : Nat) (t : SaslHandshakeRequest) : SaslHandshakeRequest :=
  { Mechanism := Cut.field n (t.ends version 0) t.Mechanism [] }

/-- The same after the first `k` statements of `Decode`. -/
def SaslHandshakeRequest.cutAt (version : Int16) (t : SaslHandshakeRequest) (k n : Nat) : SaslHandshakeRequest :=
  { Mechanism := upto k 0 (Cut.field n (t.ends version 0) t.Mechanism []) [] }

/-- The first `k` fields of `y`, and zeros. -/
def SaslHandshakeRequest.first (k : Nat) (y : SaslHandshakeRequest) : SaslHandshakeRequest :=
  { Mechanism := upto k 0 y.Mechanism [] }

/-- `r` is a beginning of `y`, and zeros. -/
def SaslHandshakeRequest.Part (r y : SaslHandshakeRequest) : Prop :=
  (∃ k, k < 1 ∧ r = y.first k)

/-- `SaslHandshakeRequest` with its receiver kept. -/
def SaslHandshakeRequest.keeps : KeptMsg SaslHandshakeRequest.type := { decode := SaslHandshakeRequest.decodeK, cut := SaslHandshakeRequest.cut, Part := SaslHandshakeRequest.Part }

theorem SaslHandshakeRequest.sameK (version : Int16) : KStep (SaslHandshakeRequest.decodeK version) (SaslHandshakeRequest.decode version) :=
  KStep.field
theorem SaslHandshakeRequest.cutsK (version : Int16) (t : SaslHandshakeRequest) (h : t.Fits version) :
    Cuts (SaslHandshakeRequest.decodeK version) 0 (SaslHandshakeRequest.wire version t) (SaslHandshakeRequest.ends version t 0) (SaslHandshakeRequest.cutAt version t 0) (SaslHandshakeRequest.cutAt version t 1) :=
  (.field (reads_string h.Mechanism) (fun _ => rfl) (fun _ => rfl) : Cuts _ 0 _ (SaslHandshakeRequest.ends version t 0) (SaslHandshakeRequest.cutAt version t 0) (SaslHandshakeRequest.cutAt version t 1))
theorem SaslHandshakeRequest.partsK (version : Int16) : Parts (SaslHandshakeRequest.decodeK version) (SaslHandshakeRequest.first 0) (SaslHandshakeRequest.first 1) (fun r y => (r = SaslHandshakeRequest.first 0 y)) :=
  (.field Longer.string (fun _ => rfl) (fun _ _ => rfl) (fun _ _ => rfl) (fun _ => rfl) : Parts (KDec.field Dec.string [] (fun t x => { t with Mechanism := x })) (SaslHandshakeRequest.first 0) (SaslHandshakeRequest.first 1) (fun r y => r = SaslHandshakeRequest.first 0 y))
theorem SaslHandshakeRequest.filled (version : Int16) : FilledStep 2 32770 (SaslHandshakeRequest.decode version) :=
  (FilledStep.field .string).mono (by decide) (by decide)
theorem SaslHandshakeRequest.part_of (r y : SaslHandshakeRequest) (h : (r = SaslHandshakeRequest.first 0 y)) : SaslHandshakeRequest.Part r y :=
  match h with
    | h => ⟨0, by decide, h⟩
theorem SaslHandshakeRequest.keeps_holds : SaslHandshakeRequest.keeps.Holds SaslHandshakeRequest.layout :=
  KeptMsg.holds SaslHandshakeRequest.lawful SaslHandshakeRequest.sameK (stop := fun v t => SaslHandshakeRequest.ends v t 0) (c := fun v t => SaslHandshakeRequest.cutAt v t 0) (fun _ _ _ => rfl) SaslHandshakeRequest.cutsK (c0 := SaslHandshakeRequest.first 0) rfl SaslHandshakeRequest.partsK SaslHandshakeRequest.part_of SaslHandshakeRequest.filled (by decide) (by decide)

/-- message/messages.gen.go:5195-5206 `SaslHandshakeResponse.Decode`, with the receiver kept -/
def SaslHandshakeResponse.decodeK (_version : Int16) : KDec SaslHandshakeResponse :=
    KDec.field Dec.int16 0 (fun t x => { t with ErrorCode := x }) ;|>
    KDec.field Dec.stringArray none (fun t x => { t with Mechanisms := x })

/-- Where the fields of `SaslHandshakeResponse` end. -/
def SaslHandshakeResponse.ends (_version : Int16) (t : SaslHandshakeResponse) : Nat → Nat :=
  Cut.ends 0 [Wire.int16 t.ErrorCode,
    Wire.stringArray t.Mechanisms]

/-- What is left of `t` if only its first `n` bytes are there. -/
def SaslHandshakeResponse.cut (version : Int16) (n : Nat) (t : SaslHandshakeResponse) : SaslHandshakeResponse :=
  { ErrorCode := Cut.field n (t.ends version 0) t.ErrorCode 0,
    Mechanisms := Cut.field n (t.ends version 1) t.Mechanisms none }

/-- The same after the first `k` statements of `Decode`. -/
def SaslHandshakeResponse.cutAt (version : Int16) (t : SaslHandshakeResponse) (k n : Nat) : SaslHandshakeResponse :=
  { ErrorCode := upto k 0 (Cut.field n (t.ends version 0) t.ErrorCode 0) 0,
    Mechanisms := upto k 1 (Cut.field n (t.ends version 1) t.Mechanisms none) none }

/-- The first `k` fields of `y`, and zeros. -/
def SaslHandshakeResponse.first (k : Nat) (y : SaslHandshakeResponse) : SaslHandshakeResponse :=
  { ErrorCode := upto k 0 y.ErrorCode 0,
    Mechanisms := upto k 1 y.Mechanisms none }

/-- `r` is a beginning of `y`, and zeros. -/
def SaslHandshakeResponse.Part (r y : SaslHandshakeResponse) : Prop :=
  (∃ k, k < 2 ∧ r = y.first k)

/-- `SaslHandshakeResponse` with its receiver kept. -/
def SaslHandshakeResponse.keeps : KeptMsg SaslHandshakeResponse.type := { decode := SaslHandshakeResponse.decodeK, cut := SaslHandshakeResponse.cut, Part := SaslHandshakeResponse.Part }

theorem SaslHandshakeResponse.sameK (version : Int16) : KStep (SaslHandshakeResponse.decodeK version) (SaslHandshakeResponse.decode version) :=
  (KStep.field)
    |>.andThen (KStep.field)
theorem SaslHandshakeResponse.cutsK (version : Int16) (t : SaslHandshakeResponse) (h : t.Fits version) :
    Cuts (SaslHandshakeResponse.decodeK version) 0 (SaslHandshakeResponse.wire version t) (SaslHandshakeResponse.ends version t 1) (SaslHandshakeResponse.cutAt version t 0) (SaslHandshakeResponse.cutAt version t 2) :=
  (.field (reads_int16 t.ErrorCode) (fun _ => rfl) (fun _ => rfl) : Cuts _ 0 _ (SaslHandshakeResponse.ends version t 0) (SaslHandshakeResponse.cutAt version t 0) (SaslHandshakeResponse.cutAt version t 1))
    |>.andThen (.field (reads_stringArray h.Mechanisms) (fun _ => rfl) (fun _ => rfl) : Cuts _ (SaslHandshakeResponse.ends version t 0) _ (SaslHandshakeResponse.ends version t 1) (SaslHandshakeResponse.cutAt version t 1) (SaslHandshakeResponse.cutAt version t 2))
theorem SaslHandshakeResponse.partsK (version : Int16) : Parts (SaslHandshakeResponse.decodeK version) (SaslHandshakeResponse.first 0) (SaslHandshakeResponse.first 2) (fun r y => ((r = SaslHandshakeResponse.first 0 y) ∨ (r = SaslHandshakeResponse.first 1 y))) :=
  (.field Longer.int16 (fun _ => rfl) (fun _ _ => rfl) (fun _ _ => rfl) (fun _ => rfl) : Parts (KDec.field Dec.int16 0 (fun t x => { t with ErrorCode := x })) (SaslHandshakeResponse.first 0) (SaslHandshakeResponse.first 1) (fun r y => r = SaslHandshakeResponse.first 0 y))
    |>.andThen (.field Longer.stringArray (fun _ => rfl) (fun _ _ => rfl) (fun _ _ => rfl) (fun _ => rfl) : Parts (KDec.field Dec.stringArray none (fun t x => { t with Mechanisms := x })) (SaslHandshakeResponse.first 1) (SaslHandshakeResponse.first 2) (fun r y => r = SaslHandshakeResponse.first 1 y))
theorem SaslHandshakeResponse.filled (version : Int16) : FilledStep 6 4295000070 (SaslHandshakeResponse.decode version) :=
  ((FilledStep.field .int16)
    |>.andThen (FilledStep.field .stringArray)).mono (by decide) (by decide)
theorem SaslHandshakeResponse.part_of (r y : SaslHandshakeResponse) (h : ((r = SaslHandshakeResponse.first 0 y) ∨ (r = SaslHandshakeResponse.first 1 y))) : SaslHandshakeResponse.Part r y :=
  match h with
    | (.inl h) => ⟨0, by decide, h⟩
    | (.inr h) => ⟨1, by decide, h⟩
theorem SaslHandshakeResponse.keeps_holds : SaslHandshakeResponse.keeps.Holds SaslHandshakeResponse.layout :=
  KeptMsg.holds SaslHandshakeResponse.lawful SaslHandshakeResponse.sameK (stop := fun v t => SaslHandshakeResponse.ends v t 1) (c := fun v t => SaslHandshakeResponse.cutAt v t 0) (fun _ _ _ => rfl) SaslHandshakeResponse.cutsK (c0 := SaslHandshakeResponse.first 0) rfl SaslHandshakeResponse.partsK SaslHandshakeResponse.part_of SaslHandshakeResponse.filled (by decide) (by decide)

/-- The structures of the SaslHandshake messages. -/
def keptSaslHandshake : List (Σ (M : MsgType) (_ : Layout M), KeptMsg M) :=
  [⟨SaslHandshakeRequest.type, SaslHandshakeRequest.layout, SaslHandshakeRequest.keeps⟩,
   ⟨SaslHandshakeResponse.type, SaslHandshakeResponse.layout, SaslHandshakeResponse.keeps⟩]
theorem keptSaslHandshake_holds : ∀ p ∈ keptSaslHandshake, p.2.2.Holds p.2.1 := by
  unfold keptSaslHandshake
  simp only [List.forall_mem_cons]
  exact ⟨SaslHandshakeRequest.keeps_holds, SaslHandshakeResponse.keeps_holds, fun _ h => absurd h (by simp)⟩

end Kafka.Msg
