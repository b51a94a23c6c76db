import Verif.Message.KeptLemmas
import Verif.Gen.Proof.Header
/-!
Generated by tools/gen_messages.py: what is in the Header messages after an error.
-/
set_option linter.unusedVariables false
namespace Kafka.Msg

/-- message/messages.gen.go:469-490 `RequestHeader.Decode`, with the receiver kept -/
def RequestHeader.decodeK (version : Int16) : KDec RequestHeader :=
    KDec.field Dec.int16 0 (fun t x => { t with RequestApiKey := x }) ;|>
    KDec.field Dec.int16 0 (fun t x => { t with RequestApiVersion := x }) ;|>
    KDec.field Dec.int32 0 (fun t x => { t with CorrelationId := x }) ;|>
    KDec.onlyIf (version ≥ 1) (KDec.field Dec.string [] (fun t x => { t with ClientId := x }))

/-- Where the fields of `RequestHeader` end. -/
def RequestHeader.ends (version : Int16) (t : RequestHeader) : Nat → Nat :=
  Cut.ends 0 [Wire.int16 t.RequestApiKey,
    Wire.int16 t.RequestApiVersion,
    Wire.int32 t.CorrelationId,
    Wire.when (version ≥ 1) (Wire.string t.ClientId)]

/-- What is left of `t` if only its first `n` bytes are there. -/
def RequestHeader.cut (version : Int16) (n : Nat) (t : RequestHeader) : RequestHeader :=
  { RequestApiKey := Cut.field n (t.ends version 0) t.RequestApiKey 0,
    RequestApiVersion := Cut.field n (t.ends version 1) t.RequestApiVersion 0,
    CorrelationId := Cut.field n (t.ends version 2) t.CorrelationId 0,
    ClientId := Cut.gate (version ≥ 1) (Cut.field n (t.ends version 3) t.ClientId []) [] }

/-- The same after the first `k` statements of `Decode`. -/
def RequestHeader.cutAt (version : Int16) (t : RequestHeader) (k n : Nat) : RequestHeader :=
  { RequestApiKey := upto k 0 (Cut.field n (t.ends version 0) t.RequestApiKey 0) 0,
    RequestApiVersion := upto k 1 (Cut.field n (t.ends version 1) t.RequestApiVersion 0) 0,
    CorrelationId := upto k 2 (Cut.field n (t.ends version 2) t.CorrelationId 0) 0,
    ClientId := upto k 3 (Cut.gate (version ≥ 1) (Cut.field n (t.ends version 3) t.ClientId []) []) [] }

/-- The first `k` fields of `y`, and zeros. -/
def RequestHeader.first (k : Nat) (y : RequestHeader) : RequestHeader :=
  { RequestApiKey := upto k 0 y.RequestApiKey 0,
    RequestApiVersion := upto k 1 y.RequestApiVersion 0,
    CorrelationId := upto k 2 y.CorrelationId 0,
    ClientId := upto k 3 y.ClientId [] }

/-- `r` is a beginning of `y`, and zeros. -/
def RequestHeader.Part (r y : RequestHeader) : Prop :=
  (∃ k, k < 4 ∧ r = y.first k)

/-- `RequestHeader` with its receiver kept. -/
def RequestHeader.keeps : KeptMsg RequestHeader.type := { decode := RequestHeader.decodeK, cut := RequestHeader.cut, Part := RequestHeader.Part }

theorem RequestHeader.sameK (version : Int16) : KStep (RequestHeader.decodeK version) (RequestHeader.decode version) :=
  (KStep.field)
    |>.andThen (KStep.field)
    |>.andThen (KStep.field)
    |>.andThen (KStep.onlyIf (KStep.field))
theorem RequestHeader.cutsK (version : Int16) (t : RequestHeader) (h : t.Fits version) :
    Cuts (RequestHeader.decodeK version) 0 (RequestHeader.wire version t) (RequestHeader.ends version t 3) (RequestHeader.cutAt version t 0) (RequestHeader.cutAt version t 4) :=
  (.field (reads_int16 t.RequestApiKey) (fun _ => rfl) (fun _ => rfl) : Cuts _ 0 _ (RequestHeader.ends version t 0) (RequestHeader.cutAt version t 0) (RequestHeader.cutAt version t 1))
    |>.andThen (.field (reads_int16 t.RequestApiVersion) (fun _ => rfl) (fun _ => rfl) : Cuts _ (RequestHeader.ends version t 0) _ (RequestHeader.ends version t 1) (RequestHeader.cutAt version t 1) (RequestHeader.cutAt version t 2))
    |>.andThen (.field (reads_int32 t.CorrelationId) (fun _ => rfl) (fun _ => rfl) : Cuts _ (RequestHeader.ends version t 1) _ (RequestHeader.ends version t 2) (RequestHeader.cutAt version t 2) (RequestHeader.cutAt version t 3))
    |>.andThen (.optField (fun hc => reads_string (h.ClientId hc)) (fun _ => rfl) (fun _ => rfl) : Cuts _ (RequestHeader.ends version t 2) _ (RequestHeader.ends version t 3) (RequestHeader.cutAt version t 3) (RequestHeader.cutAt version t 4))
theorem RequestHeader.partsK (version : Int16) : Parts (RequestHeader.decodeK version) (RequestHeader.first 0) (RequestHeader.first 4) (fun r y => ((((r = RequestHeader.first 0 y) ∨ (r = RequestHeader.first 1 y)) ∨ (r = RequestHeader.first 2 y)) ∨ (r = RequestHeader.first 3 y))) :=
  (.field Longer.int16 (fun _ => rfl) (fun _ _ => rfl) (fun _ _ => rfl) (fun _ => rfl) : Parts (KDec.field Dec.int16 0 (fun t x => { t with RequestApiKey := x })) (RequestHeader.first 0) (RequestHeader.first 1) (fun r y => r = RequestHeader.first 0 y))
    |>.andThen (.field Longer.int16 (fun _ => rfl) (fun _ _ => rfl) (fun _ _ => rfl) (fun _ => rfl) : Parts (KDec.field Dec.int16 0 (fun t x => { t with RequestApiVersion := x })) (RequestHeader.first 1) (RequestHeader.first 2) (fun r y => r = RequestHeader.first 1 y))
    |>.andThen (.field Longer.int32 (fun _ => rfl) (fun _ _ => rfl) (fun _ _ => rfl) (fun _ => rfl) : Parts (KDec.field Dec.int32 0 (fun t x => { t with CorrelationId := x })) (RequestHeader.first 2) (RequestHeader.first 3) (fun r y => r = RequestHeader.first 2 y))
    |>.andThen (.onlyIf (.field Longer.string (fun _ => rfl) (fun _ _ => rfl) (fun _ _ => rfl) (fun _ => rfl)) (fun _ => rfl) : Parts (KDec.onlyIf (version ≥ 1) (KDec.field Dec.string [] (fun t x => { t with ClientId := x }))) (RequestHeader.first 3) (RequestHeader.first 4) (fun r y => r = RequestHeader.first 3 y))
theorem RequestHeader.filled (version : Int16) : FilledStep 10 32770 (RequestHeader.decode version) :=
  ((FilledStep.field .int16)
    |>.andThen (FilledStep.field .int16)
    |>.andThen (FilledStep.field .int32)
    |>.andThen (FilledStep.onlyIf (FilledStep.field .string))).mono (by decide) (by decide)
theorem RequestHeader.part_of (r y : RequestHeader) (h : ((((r = RequestHeader.first 0 y) ∨ (r = RequestHeader.first 1 y)) ∨ (r = RequestHeader.first 2 y)) ∨ (r = RequestHeader.first 3 y))) : RequestHeader.Part r y :=
  match h with
    | (.inl (.inl (.inl h))) => ⟨0, by decide, h⟩
    | (.inl (.inl (.inr h))) => ⟨1, by decide, h⟩
    | (.inl (.inr h)) => ⟨2, by decide, h⟩
    | (.inr h) => ⟨3, by decide, h⟩
theorem RequestHeader.keeps_holds : RequestHeader.keeps.Holds RequestHeader.layout :=
  KeptMsg.holds RequestHeader.lawful RequestHeader.sameK (stop := fun v t => RequestHeader.ends v t 3) (c := fun v t => RequestHeader.cutAt v t 0) (fun _ _ _ => rfl) RequestHeader.cutsK (c0 := RequestHeader.first 0) rfl RequestHeader.partsK RequestHeader.part_of RequestHeader.filled (by decide) (by decide)

/-- message/messages.gen.go:510-517 `ResponseHeader.Decode`, with the receiver kept -/
def ResponseHeader.decodeK (_version : Int16) : KDec ResponseHeader :=
    KDec.field Dec.int32 0 (fun t x => { t with CorrelationId := x })

/-- Where the fields of `ResponseHeader` end. -/
def ResponseHeader.ends (_version : Int16) (t : ResponseHeader) : Nat → Nat :=
  Cut.ends 0 [Wire.int32 t.CorrelationId]

/-- What is left of `t` if only its first `n` bytes are there. -/
def ResponseHeader.cut (version : Int16) (n : Nat) (t : ResponseHeader) : ResponseHeader :=
  { CorrelationId := Cut.field n (t.ends version 0) t.CorrelationId 0 }

/-- The same after the first `k` statements of `Decode`. -/
def ResponseHeader.cutAt (version : Int16) (t : ResponseHeader) (k n : Nat) : ResponseHeader :=
  { CorrelationId := upto k 0 (Cut.field n (t.ends version 0) t.CorrelationId 0) 0 }

/-- The first `k` fields of `y`, and zeros. -/
def ResponseHeader.first (k : Nat) (y : ResponseHeader) : ResponseHeader :=
  { CorrelationId := upto k 0 y.CorrelationId 0 }

/-- `r` is a beginning of `y`, and zeros. -/
def ResponseHeader.Part (r y : ResponseHeader) : Prop :=
  (∃ k, k < 1 ∧ r = y.first k)

/-- `ResponseHeader` with its receiver kept. -/
def ResponseHeader.keeps : KeptMsg ResponseHeader.type := { decode := ResponseHeader.decodeK, cut := ResponseHeader.cut, Part := ResponseHeader.Part }

theorem ResponseHeader.sameK (version : Int16) : KStep (ResponseHeader.decodeK version) (ResponseHeader.decode version) :=
  KStep.field
theorem ResponseHeader.cutsK (version : Int16) (t : ResponseHeader) (h : t.Fits version) :
    Cuts (ResponseHeader.decodeK version) 0 (ResponseHeader.wire version t) (ResponseHeader.ends version t 0) (ResponseHeader.cutAt version t 0) (ResponseHeader.cutAt version t 1) :=
  (.field (reads_int32 t.CorrelationId) (fun _ => rfl) (fun _ => rfl) : Cuts _ 0 _ (ResponseHeader.ends version t 0) (ResponseHeader.cutAt version t 0) (ResponseHeader.cutAt version t 1))
theorem ResponseHeader.partsK (version : Int16) : Parts (ResponseHeader.decodeK version) (ResponseHeader.first 0) (ResponseHeader.first 1) (fun r y => (r = ResponseHeader.first 0 y)) :=
  (.field Longer.int32 (fun _ => rfl) (fun _ _ => rfl) (fun _ _ => rfl) (fun _ => rfl) : Parts (KDec.field Dec.int32 0 (fun t x => { t with CorrelationId := x })) (ResponseHeader.first 0) (ResponseHeader.first 1) (fun r y => r = ResponseHeader.first 0 y))
theorem ResponseHeader.filled (version : Int16) : FilledStep 4 4 (ResponseHeader.decode version) :=
  (FilledStep.field .int32).mono (by decide) (by decide)
theorem ResponseHeader.part_of (r y : ResponseHeader) (h : (r = ResponseHeader.first 0 y)) : ResponseHeader.Part r y :=
  match h with
    | h => ⟨0, by decide, h⟩
theorem ResponseHeader.keeps_holds : ResponseHeader.keeps.Holds ResponseHeader.layout :=
  KeptMsg.holds ResponseHeader.lawful ResponseHeader.sameK (stop := fun v t => ResponseHeader.ends v t 0) (c := fun v t => ResponseHeader.cutAt v t 0) (fun _ _ _ => rfl) ResponseHeader.cutsK (c0 := ResponseHeader.first 0) rfl ResponseHeader.partsK ResponseHeader.part_of ResponseHeader.filled (by decide) (by decide)

/-- The structures of the Header messages. -/
def keptHeader : List (Σ (M : MsgType) (_ : Layout M), KeptMsg M) :=
  [⟨RequestHeader.type, RequestHeader.layout, RequestHeader.keeps⟩,
   ⟨ResponseHeader.type, ResponseHeader.layout, ResponseHeader.keeps⟩]
theorem keptHeader_holds : ∀ p ∈ keptHeader, p.2.2.Holds p.2.1 := by
  unfold keptHeader
  simp only [List.forall_mem_cons]
  exact ⟨RequestHeader.keeps_holds, ResponseHeader.keeps_holds, fun _ h => absurd h (by simp)⟩

end Kafka.Msg
