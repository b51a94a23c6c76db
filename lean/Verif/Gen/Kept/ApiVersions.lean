import Verif.Message.KeptLemmas
import Verif.Gen.Proof.ApiVersions
/-!
Generated by tools/gen_messages.py: what is in the ApiVersions messages after an error.
-/
set_option linter.unusedVariables false
namespace Kafka.Msg

/-- message/messages.gen.go:5237-5252 `ApiVersionsRequest.Decode`, with the receiver kept -/
def ApiVersionsRequest.decodeK (version : Int16) : KDec ApiVersionsRequest :=
    KDec.onlyIf (version ≥ 3) (KDec.field Dec.string [] (fun t x => { t with ClientSoftwareName := x })) ;|>
    KDec.onlyIf (version ≥ 3) (KDec.field Dec.string [] (fun t x => { t with ClientSoftwareVersion := x }))

/-- Where the fields of `ApiVersionsRequest` end. -/
def ApiVersionsRequest.ends (version : Int16) (t : ApiVersionsRequest) : Nat → Nat :=
  Cut.ends 0 [Wire.when (version ≥ 3) (Wire.string t.ClientSoftwareName),
    Wire.when (version ≥ 3) (Wire.string t.ClientSoftwareVersion)]

/-- What is left of `t` if only its first `n` bytes are there. -/
def ApiVersionsRequest.cut (version : Int16) (n : Nat) (t : ApiVersionsRequest) : ApiVersionsRequest :=
  { ClientSoftwareName := Cut.gate (version ≥ 3) (Cut.field n (t.ends version 0) t.ClientSoftwareName []) [],
    ClientSoftwareVersion := Cut.gate (version ≥ 3) (Cut.field n (t.ends version 1) t.ClientSoftwareVersion []) [] }

/-- The same after the first `k` statements of `Decode`. -/
def ApiVersionsRequest.cutAt (version : Int16) (t : ApiVersionsRequest) (k n : Nat) : ApiVersionsRequest :=
  { ClientSoftwareName := upto k 0 (Cut.gate (version ≥ 3) (Cut.field n (t.ends version 0) t.ClientSoftwareName []) []) [],
    ClientSoftwareVersion := upto k 1 (Cut.gate (version ≥ 3) (Cut.field n (t.ends version 1) t.ClientSoftwareVersion []) []) [] }

/-- The first `k` fields of `y`, and zeros. -/
def ApiVersionsRequest.first (k : Nat) (y : ApiVersionsRequest) : ApiVersionsRequest :=
  { ClientSoftwareName := upto k 0 y.ClientSoftwareName [],
    ClientSoftwareVersion := upto k 1 y.ClientSoftwareVersion [] }

/-- `r` is a beginning of `y`, and zeros. -/
def ApiVersionsRequest.Part (r y : ApiVersionsRequest) : Prop :=
  (∃ k, k < 2 ∧ r = y.first k)

/-- `ApiVersionsRequest` with its receiver kept. -/
def ApiVersionsRequest.keeps : KeptMsg ApiVersionsRequest.type := { decode := ApiVersionsRequest.decodeK, cut := ApiVersionsRequest.cut, Part := ApiVersionsRequest.Part }

theorem ApiVersionsRequest.sameK (version : Int16) : KStep (ApiVersionsRequest.decodeK version) (ApiVersionsRequest.decode version) :=
  (KStep.onlyIf (KStep.field))
    |>.andThen (KStep.onlyIf (KStep.field))
theorem ApiVersionsRequest.cutsK (version : Int16) (t : ApiVersionsRequest) (h : t.Fits version) :
    Cuts (ApiVersionsRequest.decodeK version) 0 (ApiVersionsRequest.wire version t) (ApiVersionsRequest.ends version t 1) (ApiVersionsRequest.cutAt version t 0) (ApiVersionsRequest.cutAt version t 2) :=
  (.optField (fun hc => reads_string (h.ClientSoftwareName hc)) (fun _ => rfl) (fun _ => rfl) : Cuts _ 0 _ (ApiVersionsRequest.ends version t 0) (ApiVersionsRequest.cutAt version t 0) (ApiVersionsRequest.cutAt version t 1))
    |>.andThen (.optField (fun hc => reads_string (h.ClientSoftwareVersion hc)) (fun _ => rfl) (fun _ => rfl) : Cuts _ (ApiVersionsRequest.ends version t 0) _ (ApiVersionsRequest.ends version t 1) (ApiVersionsRequest.cutAt version t 1) (ApiVersionsRequest.cutAt version t 2))
theorem ApiVersionsRequest.partsK (version : Int16) : Parts (ApiVersionsRequest.decodeK version) (ApiVersionsRequest.first 0) (ApiVersionsRequest.first 2) (fun r y => ((r = ApiVersionsRequest.first 0 y) ∨ (r = ApiVersionsRequest.first 1 y))) :=
  (.onlyIf (.field Longer.string (fun _ => rfl) (fun _ _ => rfl) (fun _ _ => rfl) (fun _ => rfl)) (fun _ => rfl) : Parts (KDec.onlyIf (version ≥ 3) (KDec.field Dec.string [] (fun t x => { t with ClientSoftwareName := x }))) (ApiVersionsRequest.first 0) (ApiVersionsRequest.first 1) (fun r y => r = ApiVersionsRequest.first 0 y))
    |>.andThen (.onlyIf (.field Longer.string (fun _ => rfl) (fun _ _ => rfl) (fun _ _ => rfl) (fun _ => rfl)) (fun _ => rfl) : Parts (KDec.onlyIf (version ≥ 3) (KDec.field Dec.string [] (fun t x => { t with ClientSoftwareVersion := x }))) (ApiVersionsRequest.first 1) (ApiVersionsRequest.first 2) (fun r y => r = ApiVersionsRequest.first 1 y))
theorem ApiVersionsRequest.filled (version : Int16) : FilledStep 4 32772 (ApiVersionsRequest.decode version) :=
  ((FilledStep.onlyIf (FilledStep.field .string))
    |>.andThen (FilledStep.onlyIf (FilledStep.field .string))).mono (by decide) (by decide)
theorem ApiVersionsRequest.part_of (r y : ApiVersionsRequest) (h : ((r = ApiVersionsRequest.first 0 y) ∨ (r = ApiVersionsRequest.first 1 y))) : ApiVersionsRequest.Part r y :=
  match h with
    | (.inl h) => ⟨0, by decide, h⟩
    | (.inr h) => ⟨1, by decide, h⟩
theorem ApiVersionsRequest.keeps_holds : ApiVersionsRequest.keeps.Holds ApiVersionsRequest.layout :=
  KeptMsg.holds ApiVersionsRequest.lawful ApiVersionsRequest.sameK (stop := fun v t => ApiVersionsRequest.ends v t 1) (c := fun v t => ApiVersionsRequest.cutAt v t 0) (fun _ _ _ => rfl) ApiVersionsRequest.cutsK (c0 := ApiVersionsRequest.first 0) rfl ApiVersionsRequest.partsK ApiVersionsRequest.part_of ApiVersionsRequest.filled (by decide) (by decide)

/-- message/messages.gen.go:5341-5356 `ApiVersionsResponseKey18.Decode`, with the receiver kept -/
def ApiVersionsResponseKey18.decodeK (_version : Int16) : KDec ApiVersionsResponseKey18 :=
    KDec.field Dec.int16 0 (fun t x => { t with ApiKey := x }) ;|>
    KDec.field Dec.int16 0 (fun t x => { t with MinVersion := x }) ;|>
    KDec.field Dec.int16 0 (fun t x => { t with MaxVersion := x })

/-- Where the fields of `ApiVersionsResponseKey18` end. -/
def ApiVersionsResponseKey18.ends (_version : Int16) (t : ApiVersionsResponseKey18) : Nat → Nat :=
  Cut.ends 0 [Wire.int16 t.ApiKey,
    Wire.int16 t.MinVersion,
    Wire.int16 t.MaxVersion]

/-- What is left of `t` if only its first `n` bytes are there. -/
def ApiVersionsResponseKey18.cut (version : Int16) (n : Nat) (t : ApiVersionsResponseKey18) : ApiVersionsResponseKey18 :=
  { ApiKey := Cut.field n (t.ends version 0) t.ApiKey 0,
    MinVersion := Cut.field n (t.ends version 1) t.MinVersion 0,
    MaxVersion := Cut.field n (t.ends version 2) t.MaxVersion 0 }

/-- The same after the first `k` statements of `Decode`. -/
def ApiVersionsResponseKey18.cutAt (version : Int16) (t : ApiVersionsResponseKey18) (k n : Nat) : ApiVersionsResponseKey18 :=
  { ApiKey := upto k 0 (Cut.field n (t.ends version 0) t.ApiKey 0) 0,
    MinVersion := upto k 1 (Cut.field n (t.ends version 1) t.MinVersion 0) 0,
    MaxVersion := upto k 2 (Cut.field n (t.ends version 2) t.MaxVersion 0) 0 }

/-- The first `k` fields of `y`, and zeros. -/
def ApiVersionsResponseKey18.first (k : Nat) (y : ApiVersionsResponseKey18) : ApiVersionsResponseKey18 :=
  { ApiKey := upto k 0 y.ApiKey 0,
    MinVersion := upto k 1 y.MinVersion 0,
    MaxVersion := upto k 2 y.MaxVersion 0 }

/-- `r` is a beginning of `y`, and zeros. -/
def ApiVersionsResponseKey18.Part (r y : ApiVersionsResponseKey18) : Prop :=
  (∃ k, k < 3 ∧ r = y.first k)

/-- `ApiVersionsResponseKey18` with its receiver kept. -/
def ApiVersionsResponseKey18.keeps : KeptMsg ApiVersionsResponseKey18.type := { decode := ApiVersionsResponseKey18.decodeK, cut := ApiVersionsResponseKey18.cut, Part := ApiVersionsResponseKey18.Part }

theorem ApiVersionsResponseKey18.sameK (version : Int16) : KStep (ApiVersionsResponseKey18.decodeK version) (ApiVersionsResponseKey18.decode version) :=
  (KStep.field)
    |>.andThen (KStep.field)
    |>.andThen (KStep.field)
theorem ApiVersionsResponseKey18.cutsK (version : Int16) (t : ApiVersionsResponseKey18) (h : t.Fits version) :
    Cuts (ApiVersionsResponseKey18.decodeK version) 0 (ApiVersionsResponseKey18.wire version t) (ApiVersionsResponseKey18.ends version t 2) (ApiVersionsResponseKey18.cutAt version t 0) (ApiVersionsResponseKey18.cutAt version t 3) :=
  (.field (reads_int16 t.ApiKey) (fun _ => rfl) (fun _ => rfl) : Cuts _ 0 _ (ApiVersionsResponseKey18.ends version t 0) (ApiVersionsResponseKey18.cutAt version t 0) (ApiVersionsResponseKey18.cutAt version t 1))
    |>.andThen (.field (reads_int16 t.MinVersion) (fun _ => rfl) (fun _ => rfl) : Cuts _ (ApiVersionsResponseKey18.ends version t 0) _ (ApiVersionsResponseKey18.ends version t 1) (ApiVersionsResponseKey18.cutAt version t 1) (ApiVersionsResponseKey18.cutAt version t 2))
    |>.andThen (.field (reads_int16 t.MaxVersion) (fun _ => rfl) (fun _ => rfl) : Cuts _ (ApiVersionsResponseKey18.ends version t 1) _ (ApiVersionsResponseKey18.ends version t 2) (ApiVersionsResponseKey18.cutAt version t 2) (ApiVersionsResponseKey18.cutAt version t 3))
theorem ApiVersionsResponseKey18.partsK (version : Int16) : Parts (ApiVersionsResponseKey18.decodeK version) (ApiVersionsResponseKey18.first 0) (ApiVersionsResponseKey18.first 3) (fun r y => (((r = ApiVersionsResponseKey18.first 0 y) ∨ (r = ApiVersionsResponseKey18.first 1 y)) ∨ (r = ApiVersionsResponseKey18.first 2 y))) :=
  (.field Longer.int16 (fun _ => rfl) (fun _ _ => rfl) (fun _ _ => rfl) (fun _ => rfl) : Parts (KDec.field Dec.int16 0 (fun t x => { t with ApiKey := x })) (ApiVersionsResponseKey18.first 0) (ApiVersionsResponseKey18.first 1) (fun r y => r = ApiVersionsResponseKey18.first 0 y))
    |>.andThen (.field Longer.int16 (fun _ => rfl) (fun _ _ => rfl) (fun _ _ => rfl) (fun _ => rfl) : Parts (KDec.field Dec.int16 0 (fun t x => { t with MinVersion := x })) (ApiVersionsResponseKey18.first 1) (ApiVersionsResponseKey18.first 2) (fun r y => r = ApiVersionsResponseKey18.first 1 y))
    |>.andThen (.field Longer.int16 (fun _ => rfl) (fun _ _ => rfl) (fun _ _ => rfl) (fun _ => rfl) : Parts (KDec.field Dec.int16 0 (fun t x => { t with MaxVersion := x })) (ApiVersionsResponseKey18.first 2) (ApiVersionsResponseKey18.first 3) (fun r y => r = ApiVersionsResponseKey18.first 2 y))
theorem ApiVersionsResponseKey18.filled (version : Int16) : FilledStep 6 6 (ApiVersionsResponseKey18.decode version) :=
  ((FilledStep.field .int16)
    |>.andThen (FilledStep.field .int16)
    |>.andThen (FilledStep.field .int16)).mono (by decide) (by decide)
theorem ApiVersionsResponseKey18.part_of (r y : ApiVersionsResponseKey18) (h : (((r = ApiVersionsResponseKey18.first 0 y) ∨ (r = ApiVersionsResponseKey18.first 1 y)) ∨ (r = ApiVersionsResponseKey18.first 2 y))) : ApiVersionsResponseKey18.Part r y :=
  match h with
    | (.inl (.inl h)) => ⟨0, by decide, h⟩
    | (.inl (.inr h)) => ⟨1, by decide, h⟩
    | (.inr h) => ⟨2, by decide, h⟩
theorem ApiVersionsResponseKey18.keeps_holds : ApiVersionsResponseKey18.keeps.Holds ApiVersionsResponseKey18.layout :=
  KeptMsg.holds ApiVersionsResponseKey18.lawful ApiVersionsResponseKey18.sameK (stop := fun v t => ApiVersionsResponseKey18.ends v t 2) (c := fun v t => ApiVersionsResponseKey18.cutAt v t 0) (fun _ _ _ => rfl) ApiVersionsResponseKey18.cutsK (c0 := ApiVersionsResponseKey18.first 0) rfl ApiVersionsResponseKey18.partsK ApiVersionsResponseKey18.part_of ApiVersionsResponseKey18.filled (by decide) (by decide)

/-- message/messages.gen.go:5290-5316 `ApiVersionsResponse.Decode`, with the receiver kept -/
def ApiVersionsResponse.decodeK (version : Int16) : KDec ApiVersionsResponse :=
    KDec.field Dec.int16 0 (fun t x => { t with ErrorCode := x }) ;|>
    KDec.fieldStructs (ApiVersionsResponseKey18.decodeK version {}) {} (fun t x => { t with ApiKeys := x }) ;|>
    KDec.onlyIf (version ≥ 1) (KDec.field Dec.int32 0 (fun t x => { t with ThrottleTimeMs := x }))

/-- Where the fields of `ApiVersionsResponse` end. -/
def ApiVersionsResponse.ends (version : Int16) (t : ApiVersionsResponse) : Nat → Nat :=
  Cut.ends 0 [Wire.int16 t.ErrorCode,
    Wire.array (ApiVersionsResponseKey18.wire version) t.ApiKeys,
    Wire.when (version ≥ 1) (Wire.int32 t.ThrottleTimeMs)]

/-- What is left of `t` if only its first `n` bytes are there. -/
def ApiVersionsResponse.cut (version : Int16) (n : Nat) (t : ApiVersionsResponse) : ApiVersionsResponse :=
  { ErrorCode := Cut.field n (t.ends version 0) t.ErrorCode 0,
    ApiKeys := Cut.array n (t.ends version 0) (ApiVersionsResponseKey18.wire version) (fun x => x.seen version {}) {} t.ApiKeys,
    ThrottleTimeMs := Cut.gate (version ≥ 1) (Cut.field n (t.ends version 2) t.ThrottleTimeMs 0) 0 }

/-- The same after the first `k` statements of `Decode`. -/
def ApiVersionsResponse.cutAt (version : Int16) (t : ApiVersionsResponse) (k n : Nat) : ApiVersionsResponse :=
  { ErrorCode := upto k 0 (Cut.field n (t.ends version 0) t.ErrorCode 0) 0,
    ApiKeys := upto k 1 (Cut.array n (t.ends version 0) (ApiVersionsResponseKey18.wire version) (fun x => x.seen version {}) {} t.ApiKeys) none,
    ThrottleTimeMs := upto k 2 (Cut.gate (version ≥ 1) (Cut.field n (t.ends version 2) t.ThrottleTimeMs 0) 0) 0 }

/-- The first `k` fields of `y`, and zeros. -/
def ApiVersionsResponse.first (k : Nat) (y : ApiVersionsResponse) : ApiVersionsResponse :=
  { ErrorCode := upto k 0 y.ErrorCode 0,
    ApiKeys := upto k 1 y.ApiKeys none,
    ThrottleTimeMs := upto k 2 y.ThrottleTimeMs 0 }

/-- `r` is a beginning of `y`, and zeros. -/
def ApiVersionsResponse.Part (r y : ApiVersionsResponse) : Prop :=
  (∃ k, k < 3 ∧ r = y.first k) ∨
    Cut.begun {} (fun t => t.ApiKeys) (fun t x => { t with ApiKeys := x }) (ApiVersionsResponse.first 1) r y

/-- `ApiVersionsResponse` with its receiver kept. -/
def ApiVersionsResponse.keeps : KeptMsg ApiVersionsResponse.type := { decode := ApiVersionsResponse.decodeK, cut := ApiVersionsResponse.cut, Part := ApiVersionsResponse.Part }

theorem ApiVersionsResponse.sameK (version : Int16) : KStep (ApiVersionsResponse.decodeK version) (ApiVersionsResponse.decode version) :=
  (KStep.field)
    |>.andThen (KStep.structs (fun _ => rfl) (ApiVersionsResponseKey18.sameK version {}))
    |>.andThen (KStep.onlyIf (KStep.field))
theorem ApiVersionsResponse.cutsK (version : Int16) (t : ApiVersionsResponse) (h : t.Fits version) :
    Cuts (ApiVersionsResponse.decodeK version) 0 (ApiVersionsResponse.wire version t) (ApiVersionsResponse.ends version t 2) (ApiVersionsResponse.cutAt version t 0) (ApiVersionsResponse.cutAt version t 3) :=
  (.field (reads_int16 t.ErrorCode) (fun _ => rfl) (fun _ => rfl) : Cuts _ 0 _ (ApiVersionsResponse.ends version t 0) (ApiVersionsResponse.cutAt version t 0) (ApiVersionsResponse.cutAt version t 1))
    |>.andThen (.structs (ApiVersionsResponseKey18.sameK version {}) (fun x hx => ApiVersionsResponseKey18.reads version x hx {}) h.ApiKeys (fun _ => rfl) (fun _ => rfl) : Cuts _ (ApiVersionsResponse.ends version t 0) _ (ApiVersionsResponse.ends version t 1) (ApiVersionsResponse.cutAt version t 1) (ApiVersionsResponse.cutAt version t 2))
    |>.andThen (.optField (fun _ => reads_int32 t.ThrottleTimeMs) (fun _ => rfl) (fun _ => rfl) : Cuts _ (ApiVersionsResponse.ends version t 1) _ (ApiVersionsResponse.ends version t 2) (ApiVersionsResponse.cutAt version t 2) (ApiVersionsResponse.cutAt version t 3))
theorem ApiVersionsResponse.partsK (version : Int16) : Parts (ApiVersionsResponse.decodeK version) (ApiVersionsResponse.first 0) (ApiVersionsResponse.first 3) (fun r y => (((r = ApiVersionsResponse.first 0 y) ∨ (r = ApiVersionsResponse.first 1 y ∨ Cut.begun {} (fun t => t.ApiKeys) (fun t x => { t with ApiKeys := x }) (ApiVersionsResponse.first 1) r y)) ∨ (r = ApiVersionsResponse.first 2 y))) :=
  (.field Longer.int16 (fun _ => rfl) (fun _ _ => rfl) (fun _ _ => rfl) (fun _ => rfl) : Parts (KDec.field Dec.int16 0 (fun t x => { t with ErrorCode := x })) (ApiVersionsResponse.first 0) (ApiVersionsResponse.first 1) (fun r y => r = ApiVersionsResponse.first 0 y))
    |>.andThen (.structs (get := fun (t : ApiVersionsResponse) => t.ApiKeys) ((ApiVersionsResponseKey18.partsK version).longer {}) (fun _ => rfl) (fun _ => rfl) (fun _ _ => rfl) (fun _ _ => rfl) (fun _ _ => rfl) (fun _ => rfl) (fun _ => rfl) : Parts (KDec.fieldStructs (ApiVersionsResponseKey18.decodeK version {}) {} (fun t x => { t with ApiKeys := x })) (ApiVersionsResponse.first 1) (ApiVersionsResponse.first 2) (fun r y => r = ApiVersionsResponse.first 1 y ∨ Cut.begun {} (fun t => t.ApiKeys) (fun t x => { t with ApiKeys := x }) (ApiVersionsResponse.first 1) r y))
    |>.andThen (.onlyIf (.field Longer.int32 (fun _ => rfl) (fun _ _ => rfl) (fun _ _ => rfl) (fun _ => rfl)) (fun _ => rfl) : Parts (KDec.onlyIf (version ≥ 1) (KDec.field Dec.int32 0 (fun t x => { t with ThrottleTimeMs := x }))) (ApiVersionsResponse.first 2) (ApiVersionsResponse.first 3) (fun r y => r = ApiVersionsResponse.first 2 y))
theorem ApiVersionsResponse.filled (version : Int16) : FilledStep 10 12884901902 (ApiVersionsResponse.decode version) :=
  ((FilledStep.field .int16)
    |>.andThen (FilledStep.structs (ApiVersionsResponseKey18.filled version {}))
    |>.andThen (FilledStep.onlyIf (FilledStep.field .int32))).mono (by decide) (by decide)
theorem ApiVersionsResponse.part_of (r y : ApiVersionsResponse) (h : (((r = ApiVersionsResponse.first 0 y) ∨ (r = ApiVersionsResponse.first 1 y ∨ Cut.begun {} (fun t => t.ApiKeys) (fun t x => { t with ApiKeys := x }) (ApiVersionsResponse.first 1) r y)) ∨ (r = ApiVersionsResponse.first 2 y))) : ApiVersionsResponse.Part r y :=
  match h with
    | (.inl (.inl h)) => .inl ⟨0, by decide, h⟩
    | (.inl (.inr (.inl h))) => .inl ⟨1, by decide, h⟩
    | (.inl (.inr (.inr h))) => (.inr h)
    | (.inr h) => .inl ⟨2, by decide, h⟩
theorem ApiVersionsResponse.keeps_holds : ApiVersionsResponse.keeps.Holds ApiVersionsResponse.layout :=
  KeptMsg.holds ApiVersionsResponse.lawful ApiVersionsResponse.sameK (stop := fun v t => ApiVersionsResponse.ends v t 2) (c := fun v t => ApiVersionsResponse.cutAt v t 0) (fun _ _ _ => rfl) ApiVersionsResponse.cutsK (c0 := ApiVersionsResponse.first 0) rfl ApiVersionsResponse.partsK ApiVersionsResponse.part_of ApiVersionsResponse.filled (by decide) (by decide)

/-- The structures of the ApiVersions messages. -/
def keptApiVersions : List (Σ (M : MsgType) (_ : Layout M), KeptMsg M) :=
  [⟨ApiVersionsRequest.type, ApiVersionsRequest.layout, ApiVersionsRequest.keeps⟩,
   ⟨ApiVersionsResponse.type, ApiVersionsResponse.layout, ApiVersionsResponse.keeps⟩,
   ⟨ApiVersionsResponseKey18.type, ApiVersionsResponseKey18.layout, ApiVersionsResponseKey18.keeps⟩]
theorem keptApiVersions_holds : ∀ p ∈ keptApiVersions, p.2.2.Holds p.2.1 := by
  unfold keptApiVersions
  simp only [List.forall_mem_cons]
  exact ⟨ApiVersionsRequest.keeps_holds, ApiVersionsResponse.keeps_holds, ApiVersionsResponseKey18.keeps_holds, fun _ h => absurd h (by simp)⟩

end Kafka.Msg
