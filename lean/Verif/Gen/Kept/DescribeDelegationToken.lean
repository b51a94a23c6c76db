import Verif.Message.KeptLemmas
import Verif.Gen.Proof.DescribeDelegationToken
/-!
Generated by tools/gen_messages.py: what is in the DescribeDelegationToken messages after an error.
-/
set_option linter.unusedVariables false
namespace Kafka.Msg

/-- message/messages.gen.go:10285-10296 `DescribeDelegationTokenOwner41.Decode`, with the receiver kept -/
def DescribeDelegationTokenOwner41.decodeK (_version : Int16) : KDec DescribeDelegationTokenOwner41 :=
    KDec.field Dec.string [] (fun t x => { t with PrincipalType := x }) ;|>
    KDec.field Dec.string [] (fun t x => { t with PrincipalName := x })

/-- Where the fields of `DescribeDelegationTokenOwner41` end. -/
def DescribeDelegationTokenOwner41.ends (_version : Int16) (t : DescribeDelegationTokenOwner41) : Nat → Nat :=
  Cut.ends 0 [Wire.string t.PrincipalType,
    Wire.string t.PrincipalName]

/-- What is left of `t` if only its first `n` bytes are there. -/
def DescribeDelegationTokenOwner41.cut (version : Int16) (n : Nat) (t : DescribeDelegationTokenOwner41) : DescribeDelegationTokenOwner41 :=
  { PrincipalType := Cut.field n (t.ends version 0) t.PrincipalType [],
    PrincipalName := Cut.field n (t.ends version 1) t.PrincipalName [] }

/-- The same after the first `k` statements of `Decode`. -/
def DescribeDelegationTokenOwner41.cutAt (version : Int16) (t : DescribeDelegationTokenOwner41) (k n : Nat) : DescribeDelegationTokenOwner41 :=
  { PrincipalType := upto k 0 (Cut.field n (t.ends version 0) t.PrincipalType []) [],
    PrincipalName := upto k 1 (Cut.field n (t.ends version 1) t.PrincipalName []) [] }

/-- The first `k` fields of `y`, and zeros. -/
def DescribeDelegationTokenOwner41.first (k : Nat) (y : DescribeDelegationTokenOwner41) : DescribeDelegationTokenOwner41 :=
  { PrincipalType := upto k 0 y.PrincipalType [],
    PrincipalName := upto k 1 y.PrincipalName [] }

/-- `r` is a beginning of `y`, and zeros. -/
def DescribeDelegationTokenOwner41.Part (r y : DescribeDelegationTokenOwner41) : Prop :=
  (∃ k, k < 2 ∧ r = y.first k)

/-- `DescribeDelegationTokenOwner41` with its receiver kept. -/
def DescribeDelegationTokenOwner41.keeps : KeptMsg DescribeDelegationTokenOwner41.type := { decode := DescribeDelegationTokenOwner41.decodeK, cut := DescribeDelegationTokenOwner41.cut, Part := DescribeDelegationTokenOwner41.Part }

theorem DescribeDelegationTokenOwner41.sameK (version : Int16) : KStep (DescribeDelegationTokenOwner41.decodeK version) (DescribeDelegationTokenOwner41.decode version) :=
  (KStep.field)
    |>.andThen (KStep.field)
theorem DescribeDelegationTokenOwner41.cutsK (version : Int16) (t : DescribeDelegationTokenOwner41) (h : t.Fits version) :
    Cuts (DescribeDelegationTokenOwner41.decodeK version) 0 (DescribeDelegationTokenOwner41.wire version t) (DescribeDelegationTokenOwner41.ends version t 1) (DescribeDelegationTokenOwner41.cutAt version t 0) (DescribeDelegationTokenOwner41.cutAt version t 2) :=
  (.field (reads_string h.PrincipalType) (fun _ => rfl) (fun _ => rfl) : Cuts _ 0 _ (DescribeDelegationTokenOwner41.ends version t 0) (DescribeDelegationTokenOwner41.cutAt version t 0) (DescribeDelegationTokenOwner41.cutAt version t 1))
    |>.andThen (.field (reads_string h.PrincipalName) (fun _ => rfl) (fun _ => rfl) : Cuts _ (DescribeDelegationTokenOwner41.ends version t 0) _ (DescribeDelegationTokenOwner41.ends version t 1) (DescribeDelegationTokenOwner41.cutAt version t 1) (DescribeDelegationTokenOwner41.cutAt version t 2))
theorem DescribeDelegationTokenOwner41.partsK (version : Int16) : Parts (DescribeDelegationTokenOwner41.decodeK version) (DescribeDelegationTokenOwner41.first 0) (DescribeDelegationTokenOwner41.first 2) (fun r y => ((r = DescribeDelegationTokenOwner41.first 0 y) ∨ (r = DescribeDelegationTokenOwner41.first 1 y))) :=
  (.field Longer.string (fun _ => rfl) (fun _ _ => rfl) (fun _ _ => rfl) (fun _ => rfl) : Parts (KDec.field Dec.string [] (fun t x => { t with PrincipalType := x })) (DescribeDelegationTokenOwner41.first 0) (DescribeDelegationTokenOwner41.first 1) (fun r y => r = DescribeDelegationTokenOwner41.first 0 y))
    |>.andThen (.field Longer.string (fun _ => rfl) (fun _ _ => rfl) (fun _ _ => rfl) (fun _ => rfl) : Parts (KDec.field Dec.string [] (fun t x => { t with PrincipalName := x })) (DescribeDelegationTokenOwner41.first 1) (DescribeDelegationTokenOwner41.first 2) (fun r y => r = DescribeDelegationTokenOwner41.first 1 y))
theorem DescribeDelegationTokenOwner41.filled (version : Int16) : FilledStep 4 32772 (DescribeDelegationTokenOwner41.decode version) :=
  ((FilledStep.field .string)
    |>.andThen (FilledStep.field .string)).mono (by decide) (by decide)
theorem DescribeDelegationTokenOwner41.part_of (r y : DescribeDelegationTokenOwner41) (h : ((r = DescribeDelegationTokenOwner41.first 0 y) ∨ (r = DescribeDelegationTokenOwner41.first 1 y))) : DescribeDelegationTokenOwner41.Part r y :=
  match h with
    | (.inl h) => ⟨0, by decide, h⟩
    | (.inr h) => ⟨1, by decide, h⟩
theorem DescribeDelegationTokenOwner41.keeps_holds : DescribeDelegationTokenOwner41.keeps.Holds DescribeDelegationTokenOwner41.layout :=
  KeptMsg.holds DescribeDelegationTokenOwner41.lawful DescribeDelegationTokenOwner41.sameK (stop := fun v t => DescribeDelegationTokenOwner41.ends v t 1) (c := fun v t => DescribeDelegationTokenOwner41.cutAt v t 0) (fun _ _ _ => rfl) DescribeDelegationTokenOwner41.cutsK (c0 := DescribeDelegationTokenOwner41.first 0) rfl DescribeDelegationTokenOwner41.partsK DescribeDelegationTokenOwner41.part_of DescribeDelegationTokenOwner41.filled (by decide) (by decide)

/-- message/messages.gen.go:10247-10263 `DescribeDelegationTokenRequest.Decode`, with the receiver kept -/
def DescribeDelegationTokenRequest.decodeK (version : Int16) : KDec DescribeDelegationTokenRequest :=
    KDec.fieldStructs (DescribeDelegationTokenOwner41.decodeK version {}) {} (fun t x => { t with Owners := x })

/-- Where the fields of `DescribeDelegationTokenRequest` end. -/
def DescribeDelegationTokenRequest.ends (version : Int16) (t : DescribeDelegationTokenRequest) : Nat → Nat :=
  Cut.ends 0 [Wire.array (DescribeDelegationTokenOwner41.wire version) t.Owners]

/-- What is left of `t` if only its first `n` bytes are there. -/
def DescribeDelegationTokenRequest.cut (version : Int16) (n : Nat) (t : DescribeDelegationTokenRequest) : DescribeDelegationTokenRequest :=
  { Owners := Cut.array n 0 (DescribeDelegationTokenOwner41.wire version) (fun x => x.seen version {}) {} t.Owners }

/-- The same after the first `k` statements of `Decode`. -/
def DescribeDelegationTokenRequest.cutAt (version : Int16) (t : DescribeDelegationTokenRequest) (k n : Nat) : DescribeDelegationTokenRequest :=
  { Owners := upto k 0 (Cut.array n 0 (DescribeDelegationTokenOwner41.wire version) (fun x => x.seen version {}) {} t.Owners) none }

/-- The first `k` fields of `y`, and zeros. -/
def DescribeDelegationTokenRequest.first (k : Nat) (y : DescribeDelegationTokenRequest) : DescribeDelegationTokenRequest :=
  { Owners := upto k 0 y.Owners none }

/-- `r` is a beginning of `y`, and zeros. -/
def DescribeDelegationTokenRequest.Part (r y : DescribeDelegationTokenRequest) : Prop :=
  (∃ k, k < 1 ∧ r = y.first k) ∨
    Cut.begun {} (fun t => t.Owners) (fun t x => { t with Owners := x }) (DescribeDelegationTokenRequest.first 0) r y

/-- `DescribeDelegationTokenRequest` with its receiver kept. -/
def DescribeDelegationTokenRequest.keeps : KeptMsg DescribeDelegationTokenRequest.type := { decode := DescribeDelegationTokenRequest.decodeK, cut := DescribeDelegationTokenRequest.cut, Part := DescribeDelegationTokenRequest.Part }

theorem DescribeDelegationTokenRequest.sameK (version : Int16) : KStep (DescribeDelegationTokenRequest.decodeK version) (DescribeDelegationTokenRequest.decode version) :=
  KStep.structs (fun _ => rfl) (DescribeDelegationTokenOwner41.sameK version {})
theorem DescribeDelegationTokenRequest.cutsK (version : Int16) (t : DescribeDelegationTokenRequest) (h : t.Fits version) :
    Cuts (DescribeDelegationTokenRequest.decodeK version) 0 (DescribeDelegationTokenRequest.wire version t) (DescribeDelegationTokenRequest.ends version t 0) (DescribeDelegationTokenRequest.cutAt version t 0) (DescribeDelegationTokenRequest.cutAt version t 1) :=
  (.structs (DescribeDelegationTokenOwner41.sameK version {}) (fun x hx => DescribeDelegationTokenOwner41.reads version x hx {}) h.Owners (fun _ => rfl) (fun _ => rfl) : Cuts _ 0 _ (DescribeDelegationTokenRequest.ends version t 0) (DescribeDelegationTokenRequest.cutAt version t 0) (DescribeDelegationTokenRequest.cutAt version t 1))
theorem DescribeDelegationTokenRequest.partsK (version : Int16) : Parts (DescribeDelegationTokenRequest.decodeK version) (DescribeDelegationTokenRequest.first 0) (DescribeDelegationTokenRequest.first 1) (fun r y => (r = DescribeDelegationTokenRequest.first 0 y ∨ Cut.begun {} (fun t => t.Owners) (fun t x => { t with Owners := x }) (DescribeDelegationTokenRequest.first 0) r y)) :=
  (.structs (get := fun (t : DescribeDelegationTokenRequest) => t.Owners) ((DescribeDelegationTokenOwner41.partsK version).longer {}) (fun _ => rfl) (fun _ => rfl) (fun _ _ => rfl) (fun _ _ => rfl) (fun _ _ => rfl) (fun _ => rfl) (fun _ => rfl) : Parts (KDec.fieldStructs (DescribeDelegationTokenOwner41.decodeK version {}) {} (fun t x => { t with Owners := x })) (DescribeDelegationTokenRequest.first 0) (DescribeDelegationTokenRequest.first 1) (fun r y => r = DescribeDelegationTokenRequest.first 0 y ∨ Cut.begun {} (fun t => t.Owners) (fun t x => { t with Owners := x }) (DescribeDelegationTokenRequest.first 0) r y))
theorem DescribeDelegationTokenRequest.filled (version : Int16) : FilledStep 4 8589967368 (DescribeDelegationTokenRequest.decode version) :=
  (FilledStep.structs (DescribeDelegationTokenOwner41.filled version {})).mono (by decide) (by decide)
theorem DescribeDelegationTokenRequest.part_of (r y : DescribeDelegationTokenRequest) (h : (r = DescribeDelegationTokenRequest.first 0 y ∨ Cut.begun {} (fun t => t.Owners) (fun t x => { t with Owners := x }) (DescribeDelegationTokenRequest.first 0) r y)) : DescribeDelegationTokenRequest.Part r y :=
  match h with
    | (.inl h) => .inl ⟨0, by decide, h⟩
    | (.inr h) => (.inr h)
theorem DescribeDelegationTokenRequest.keeps_holds : DescribeDelegationTokenRequest.keeps.Holds DescribeDelegationTokenRequest.layout :=
  KeptMsg.holds DescribeDelegationTokenRequest.lawful DescribeDelegationTokenRequest.sameK (stop := fun v t => DescribeDelegationTokenRequest.ends v t 0) (c := fun v t => DescribeDelegationTokenRequest.cutAt v t 0) (fun _ _ _ => rfl) DescribeDelegationTokenRequest.cutsK (c0 := DescribeDelegationTokenRequest.first 0) rfl DescribeDelegationTokenRequest.partsK DescribeDelegationTokenRequest.part_of DescribeDelegationTokenRequest.filled (by decide) (by decide)

/-- message/messages.gen.go:10468-10479 `DescribedDelegationTokenRenewer41.Decode`, with the receiver kept -/
def DescribedDelegationTokenRenewer41.decodeK (_version : Int16) : KDec DescribedDelegationTokenRenewer41 :=
    KDec.field Dec.string [] (fun t x => { t with PrincipalType := x }) ;|>
    KDec.field Dec.string [] (fun t x => { t with PrincipalName := x })

/-- Where the fields of `DescribedDelegationTokenRenewer41` end. -/
def DescribedDelegationTokenRenewer41.ends (_version : Int16) (t : DescribedDelegationTokenRenewer41) : Nat → Nat :=
  Cut.ends 0 [Wire.string t.PrincipalType,
    Wire.string t.PrincipalName]

/-- What is left of `t` if only its first `n` bytes are there. -/
def DescribedDelegationTokenRenewer41.cut (version : Int16) (n : Nat) (t : DescribedDelegationTokenRenewer41) : DescribedDelegationTokenRenewer41 :=
  { PrincipalType := Cut.field n (t.ends version 0) t.PrincipalType [],
    PrincipalName := Cut.field n (t.ends version 1) t.PrincipalName [] }

/-- The same after the first `k` statements of `Decode`. -/
def DescribedDelegationTokenRenewer41.cutAt (version : Int16) (t : DescribedDelegationTokenRenewer41) (k n : Nat) : DescribedDelegationTokenRenewer41 :=
  { PrincipalType := upto k 0 (Cut.field n (t.ends version 0) t.PrincipalType []) [],
    PrincipalName := upto k 1 (Cut.field n (t.ends version 1) t.PrincipalName []) [] }

/-- The first `k` fields of `y`, and zeros. -/
def DescribedDelegationTokenRenewer41.first (k : Nat) (y : DescribedDelegationTokenRenewer41) : DescribedDelegationTokenRenewer41 :=
  { PrincipalType := upto k 0 y.PrincipalType [],
    PrincipalName := upto k 1 y.PrincipalName [] }

/-- `r` is a beginning of `y`, and zeros. -/
def DescribedDelegationTokenRenewer41.Part (r y : DescribedDelegationTokenRenewer41) : Prop :=
  (∃ k, k < 2 ∧ r = y.first k)

/-- `DescribedDelegationTokenRenewer41` with its receiver kept. -/
def DescribedDelegationTokenRenewer41.keeps : KeptMsg DescribedDelegationTokenRenewer41.type := { decode := DescribedDelegationTokenRenewer41.decodeK, cut := DescribedDelegationTokenRenewer41.cut, Part := DescribedDelegationTokenRenewer41.Part }

theorem DescribedDelegationTokenRenewer41.sameK (version : Int16) : KStep (DescribedDelegationTokenRenewer41.decodeK version) (DescribedDelegationTokenRenewer41.decode version) :=
  (KStep.field)
    |>.andThen (KStep.field)
theorem DescribedDelegationTokenRenewer41.cutsK (version : Int16) (t : DescribedDelegationTokenRenewer41) (h : t.Fits version) :
    Cuts (DescribedDelegationTokenRenewer41.decodeK version) 0 (DescribedDelegationTokenRenewer41.wire version t) (DescribedDelegationTokenRenewer41.ends version t 1) (DescribedDelegationTokenRenewer41.cutAt version t 0) (DescribedDelegationTokenRenewer41.cutAt version t 2) :=
  (.field (reads_string h.PrincipalType) (fun _ => rfl) (fun _ => rfl) : Cuts _ 0 _ (DescribedDelegationTokenRenewer41.ends version t 0) (DescribedDelegationTokenRenewer41.cutAt version t 0) (DescribedDelegationTokenRenewer41.cutAt version t 1))
    |>.andThen (.field (reads_string h.PrincipalName) (fun _ => rfl) (fun _ => rfl) : Cuts _ (DescribedDelegationTokenRenewer41.ends version t 0) _ (DescribedDelegationTokenRenewer41.ends version t 1) (DescribedDelegationTokenRenewer41.cutAt version t 1) (DescribedDelegationTokenRenewer41.cutAt version t 2))
theorem DescribedDelegationTokenRenewer41.partsK (version : Int16) : Parts (DescribedDelegationTokenRenewer41.decodeK version) (DescribedDelegationTokenRenewer41.first 0) (DescribedDelegationTokenRenewer41.first 2) (fun r y => ((r = DescribedDelegationTokenRenewer41.first 0 y) ∨ (r = DescribedDelegationTokenRenewer41.first 1 y))) :=
  (.field Longer.string (fun _ => rfl) (fun _ _ => rfl) (fun _ _ => rfl) (fun _ => rfl) : Parts (KDec.field Dec.string [] (fun t x => { t with PrincipalType := x })) (DescribedDelegationTokenRenewer41.first 0) (DescribedDelegationTokenRenewer41.first 1) (fun r y => r = DescribedDelegationTokenRenewer41.first 0 y))
    |>.andThen (.field Longer.string (fun _ => rfl) (fun _ _ => rfl) (fun _ _ => rfl) (fun _ => rfl) : Parts (KDec.field Dec.string [] (fun t x => { t with PrincipalName := x })) (DescribedDelegationTokenRenewer41.first 1) (DescribedDelegationTokenRenewer41.first 2) (fun r y => r = DescribedDelegationTokenRenewer41.first 1 y))
theorem DescribedDelegationTokenRenewer41.filled (version : Int16) : FilledStep 4 32772 (DescribedDelegationTokenRenewer41.decode version) :=
  ((FilledStep.field .string)
    |>.andThen (FilledStep.field .string)).mono (by decide) (by decide)
theorem DescribedDelegationTokenRenewer41.part_of (r y : DescribedDelegationTokenRenewer41) (h : ((r = DescribedDelegationTokenRenewer41.first 0 y) ∨ (r = DescribedDelegationTokenRenewer41.first 1 y))) : DescribedDelegationTokenRenewer41.Part r y :=
  match h with
    | (.inl h) => ⟨0, by decide, h⟩
    | (.inr h) => ⟨1, by decide, h⟩
theorem DescribedDelegationTokenRenewer41.keeps_holds : DescribedDelegationTokenRenewer41.keeps.Holds DescribedDelegationTokenRenewer41.layout :=
  KeptMsg.holds DescribedDelegationTokenRenewer41.lawful DescribedDelegationTokenRenewer41.sameK (stop := fun v t => DescribedDelegationTokenRenewer41.ends v t 1) (c := fun v t => DescribedDelegationTokenRenewer41.cutAt v t 0) (fun _ _ _ => rfl) DescribedDelegationTokenRenewer41.cutsK (c0 := DescribedDelegationTokenRenewer41.first 0) rfl DescribedDelegationTokenRenewer41.partsK DescribedDelegationTokenRenewer41.part_of DescribedDelegationTokenRenewer41.filled (by decide) (by decide)

/-- message/messages.gen.go:10402-10446 `DescribedDelegationToken41.Decode`, with the receiver kept -/
def DescribedDelegationToken41.decodeK (version : Int16) : KDec DescribedDelegationToken41 :=
    KDec.field Dec.string [] (fun t x => { t with PrincipalType := x }) ;|>
    KDec.field Dec.string [] (fun t x => { t with PrincipalName := x }) ;|>
    KDec.field Dec.int64 0 (fun t x => { t with IssueTimestamp := x }) ;|>
    KDec.field Dec.int64 0 (fun t x => { t with ExpiryTimestamp := x }) ;|>
    KDec.field Dec.int64 0 (fun t x => { t with MaxTimestamp := x }) ;|>
    KDec.field Dec.string [] (fun t x => { t with TokenId := x }) ;|>
    KDec.field Dec.bytes none (fun t x => { t with Hmac := x }) ;|>
    KDec.fieldStructs (DescribedDelegationTokenRenewer41.decodeK version {}) {} (fun t x => { t with Renewers := x })

/-- Where the fields of `DescribedDelegationToken41` end. -/
def DescribedDelegationToken41.ends (version : Int16) (t : DescribedDelegationToken41) : Nat → Nat :=
  Cut.ends 0 [Wire.string t.PrincipalType,
    Wire.string t.PrincipalName,
    Wire.int64 t.IssueTimestamp,
    Wire.int64 t.ExpiryTimestamp,
    Wire.int64 t.MaxTimestamp,
    Wire.string t.TokenId,
    Wire.bytes t.Hmac,
    Wire.array (DescribedDelegationTokenRenewer41.wire version) t.Renewers]

/-- What is left of `t` if only its first `n` bytes are there. -/
def DescribedDelegationToken41.cut (version : Int16) (n : Nat) (t : DescribedDelegationToken41) : DescribedDelegationToken41 :=
  { PrincipalType := Cut.field n (t.ends version 0) t.PrincipalType [],
    PrincipalName := Cut.field n (t.ends version 1) t.PrincipalName [],
    IssueTimestamp := Cut.field n (t.ends version 2) t.IssueTimestamp 0,
    ExpiryTimestamp := Cut.field n (t.ends version 3) t.ExpiryTimestamp 0,
    MaxTimestamp := Cut.field n (t.ends version 4) t.MaxTimestamp 0,
    TokenId := Cut.field n (t.ends version 5) t.TokenId [],
    Hmac := Cut.field n (t.ends version 6) t.Hmac.nonNil none,
    Renewers := Cut.array n (t.ends version 6) (DescribedDelegationTokenRenewer41.wire version) (fun x => x.seen version {}) {} t.Renewers }

/-- The same after the first `k` statements of `Decode`. -/
def DescribedDelegationToken41.cutAt (version : Int16) (t : DescribedDelegationToken41) (k n : Nat) : DescribedDelegationToken41 :=
  { PrincipalType := upto k 0 (Cut.field n (t.ends version 0) t.PrincipalType []) [],
    PrincipalName := upto k 1 (Cut.field n (t.ends version 1) t.PrincipalName []) [],
    IssueTimestamp := upto k 2 (Cut.field n (t.ends version 2) t.IssueTimestamp 0) 0,
    ExpiryTimestamp := upto k 3 (Cut.field n (t.ends version 3) t.ExpiryTimestamp 0) 0,
    MaxTimestamp := upto k 4 (Cut.field n (t.ends version 4) t.MaxTimestamp 0) 0,
    TokenId := upto k 5 (Cut.field n (t.ends version 5) t.TokenId []) [],
    Hmac := upto k 6 (Cut.field n (t.ends version 6) t.Hmac.nonNil none) none,
    Renewers := upto k 7 (Cut.array n (t.ends version 6) (DescribedDelegationTokenRenewer41.wire version) (fun x => x.seen version {}) {} t.Renewers) none }

/-- The first `k` fields of `y`, and zeros. -/
def DescribedDelegationToken41.first (k : Nat) (y : DescribedDelegationToken41) : DescribedDelegationToken41 :=
  { PrincipalType := upto k 0 y.PrincipalType [],
    PrincipalName := upto k 1 y.PrincipalName [],
    IssueTimestamp := upto k 2 y.IssueTimestamp 0,
    ExpiryTimestamp := upto k 3 y.ExpiryTimestamp 0,
    MaxTimestamp := upto k 4 y.MaxTimestamp 0,
    TokenId := upto k 5 y.TokenId [],
    Hmac := upto k 6 y.Hmac none,
    Renewers := upto k 7 y.Renewers none }

/-- `r` is a beginning of `y`, and zeros. -/
def DescribedDelegationToken41.Part (r y : DescribedDelegationToken41) : Prop :=
  (∃ k, k < 8 ∧ r = y.first k) ∨
    Cut.begun {} (fun t => t.Renewers) (fun t x => { t with Renewers := x }) (DescribedDelegationToken41.first 7) r y

/-- `DescribedDelegationToken41` with its receiver kept. -/
def DescribedDelegationToken41.keeps : KeptMsg DescribedDelegationToken41.type := { decode := DescribedDelegationToken41.decodeK, cut := DescribedDelegationToken41.cut, Part := DescribedDelegationToken41.Part }

theorem DescribedDelegationToken41.sameK (version : Int16) : KStep (DescribedDelegationToken41.decodeK version) (DescribedDelegationToken41.decode version) :=
  (KStep.field)
    |>.andThen (KStep.field)
    |>.andThen (KStep.field)
    |>.andThen (KStep.field)
    |>.andThen (KStep.field)
    |>.andThen (KStep.field)
    |>.andThen (KStep.field)
    |>.andThen (KStep.structs (fun _ => rfl) (DescribedDelegationTokenRenewer41.sameK version {}))
theorem DescribedDelegationToken41.cutsK (version : Int16) (t : DescribedDelegationToken41) (h : t.Fits version) :
    Cuts (DescribedDelegationToken41.decodeK version) 0 (DescribedDelegationToken41.wire version t) (DescribedDelegationToken41.ends version t 7) (DescribedDelegationToken41.cutAt version t 0) (DescribedDelegationToken41.cutAt version t 8) :=
  (.field (reads_string h.PrincipalType) (fun _ => rfl) (fun _ => rfl) : Cuts _ 0 _ (DescribedDelegationToken41.ends version t 0) (DescribedDelegationToken41.cutAt version t 0) (DescribedDelegationToken41.cutAt version t 1))
    |>.andThen (.field (reads_string h.PrincipalName) (fun _ => rfl) (fun _ => rfl) : Cuts _ (DescribedDelegationToken41.ends version t 0) _ (DescribedDelegationToken41.ends version t 1) (DescribedDelegationToken41.cutAt version t 1) (DescribedDelegationToken41.cutAt version t 2))
    |>.andThen (.field (reads_int64 t.IssueTimestamp) (fun _ => rfl) (fun _ => rfl) : Cuts _ (DescribedDelegationToken41.ends version t 1) _ (DescribedDelegationToken41.ends version t 2) (DescribedDelegationToken41.cutAt version t 2) (DescribedDelegationToken41.cutAt version t 3))
    |>.andThen (.field (reads_int64 t.ExpiryTimestamp) (fun _ => rfl) (fun _ => rfl) : Cuts _ (DescribedDelegationToken41.ends version t 2) _ (DescribedDelegationToken41.ends version t 3) (DescribedDelegationToken41.cutAt version t 3) (DescribedDelegationToken41.cutAt version t 4))
    |>.andThen (.field (reads_int64 t.MaxTimestamp) (fun _ => rfl) (fun _ => rfl) : Cuts _ (DescribedDelegationToken41.ends version t 3) _ (DescribedDelegationToken41.ends version t 4) (DescribedDelegationToken41.cutAt version t 4) (DescribedDelegationToken41.cutAt version t 5))
    |>.andThen (.field (reads_string h.TokenId) (fun _ => rfl) (fun _ => rfl) : Cuts _ (DescribedDelegationToken41.ends version t 4) _ (DescribedDelegationToken41.ends version t 5) (DescribedDelegationToken41.cutAt version t 5) (DescribedDelegationToken41.cutAt version t 6))
    |>.andThen (.field (reads_bytes h.Hmac) (fun _ => rfl) (fun _ => rfl) : Cuts _ (DescribedDelegationToken41.ends version t 5) _ (DescribedDelegationToken41.ends version t 6) (DescribedDelegationToken41.cutAt version t 6) (DescribedDelegationToken41.cutAt version t 7))
    |>.andThen (.structs (DescribedDelegationTokenRenewer41.sameK version {}) (fun x hx => DescribedDelegationTokenRenewer41.reads version x hx {}) h.Renewers (fun _ => rfl) (fun _ => rfl) : Cuts _ (DescribedDelegationToken41.ends version t 6) _ (DescribedDelegationToken41.ends version t 7) (DescribedDelegationToken41.cutAt version t 7) (DescribedDelegationToken41.cutAt version t 8))
theorem DescribedDelegationToken41.partsK (version : Int16) : Parts (DescribedDelegationToken41.decodeK version) (DescribedDelegationToken41.first 0) (DescribedDelegationToken41.first 8) (fun r y => ((((((((r = DescribedDelegationToken41.first 0 y) ∨ (r = DescribedDelegationToken41.first 1 y)) ∨ (r = DescribedDelegationToken41.first 2 y)) ∨ (r = DescribedDelegationToken41.first 3 y)) ∨ (r = DescribedDelegationToken41.first 4 y)) ∨ (r = DescribedDelegationToken41.first 5 y)) ∨ (r = DescribedDelegationToken41.first 6 y)) ∨ (r = DescribedDelegationToken41.first 7 y ∨ Cut.begun {} (fun t => t.Renewers) (fun t x => { t with Renewers := x }) (DescribedDelegationToken41.first 7) r y))) :=
  (.field Longer.string (fun _ => rfl) (fun _ _ => rfl) (fun _ _ => rfl) (fun _ => rfl) : Parts (KDec.field Dec.string [] (fun t x => { t with PrincipalType := x })) (DescribedDelegationToken41.first 0) (DescribedDelegationToken41.first 1) (fun r y => r = DescribedDelegationToken41.first 0 y))
    |>.andThen (.field Longer.string (fun _ => rfl) (fun _ _ => rfl) (fun _ _ => rfl) (fun _ => rfl) : Parts (KDec.field Dec.string [] (fun t x => { t with PrincipalName := x })) (DescribedDelegationToken41.first 1) (DescribedDelegationToken41.first 2) (fun r y => r = DescribedDelegationToken41.first 1 y))
    |>.andThen (.field Longer.int64 (fun _ => rfl) (fun _ _ => rfl) (fun _ _ => rfl) (fun _ => rfl) : Parts (KDec.field Dec.int64 0 (fun t x => { t with IssueTimestamp := x })) (DescribedDelegationToken41.first 2) (DescribedDelegationToken41.first 3) (fun r y => r = DescribedDelegationToken41.first 2 y))
    |>.andThen (.field Longer.int64 (fun _ => rfl) (fun _ _ => rfl) (fun _ _ => rfl) (fun _ => rfl) : Parts (KDec.field Dec.int64 0 (fun t x => { t with ExpiryTimestamp := x })) (DescribedDelegationToken41.first 3) (DescribedDelegationToken41.first 4) (fun r y => r = DescribedDelegationToken41.first 3 y))
    |>.andThen (.field Longer.int64 (fun _ => rfl) (fun _ _ => rfl) (fun _ _ => rfl) (fun _ => rfl) : Parts (KDec.field Dec.int64 0 (fun t x => { t with MaxTimestamp := x })) (DescribedDelegationToken41.first 4) (DescribedDelegationToken41.first 5) (fun r y => r = DescribedDelegationToken41.first 4 y))
    |>.andThen (.field Longer.string (fun _ => rfl) (fun _ _ => rfl) (fun _ _ => rfl) (fun _ => rfl) : Parts (KDec.field Dec.string [] (fun t x => { t with TokenId := x })) (DescribedDelegationToken41.first 5) (DescribedDelegationToken41.first 6) (fun r y => r = DescribedDelegationToken41.first 5 y))
    |>.andThen (.field Longer.bytes (fun _ => rfl) (fun _ _ => rfl) (fun _ _ => rfl) (fun _ => rfl) : Parts (KDec.field Dec.bytes none (fun t x => { t with Hmac := x })) (DescribedDelegationToken41.first 6) (DescribedDelegationToken41.first 7) (fun r y => r = DescribedDelegationToken41.first 6 y))
    |>.andThen (.structs (get := fun (t : DescribedDelegationToken41) => t.Renewers) ((DescribedDelegationTokenRenewer41.partsK version).longer {}) (fun _ => rfl) (fun _ => rfl) (fun _ _ => rfl) (fun _ _ => rfl) (fun _ _ => rfl) (fun _ => rfl) (fun _ => rfl) : Parts (KDec.fieldStructs (DescribedDelegationTokenRenewer41.decodeK version {}) {} (fun t x => { t with Renewers := x })) (DescribedDelegationToken41.first 7) (DescribedDelegationToken41.first 8) (fun r y => r = DescribedDelegationToken41.first 7 y ∨ Cut.begun {} (fun t => t.Renewers) (fun t x => { t with Renewers := x }) (DescribedDelegationToken41.first 7) r y))
theorem DescribedDelegationToken41.filled (version : Int16) : FilledStep 38 8589967368 (DescribedDelegationToken41.decode version) :=
  ((FilledStep.field .string)
    |>.andThen (FilledStep.field .string)
    |>.andThen (FilledStep.field .int64)
    |>.andThen (FilledStep.field .int64)
    |>.andThen (FilledStep.field .int64)
    |>.andThen (FilledStep.field .string)
    |>.andThen (FilledStep.field .bytes)
    |>.andThen (FilledStep.structs (DescribedDelegationTokenRenewer41.filled version {}))).mono (by decide) (by decide)
theorem DescribedDelegationToken41.part_of (r y : DescribedDelegationToken41) (h : ((((((((r = DescribedDelegationToken41.first 0 y) ∨ (r = DescribedDelegationToken41.first 1 y)) ∨ (r = DescribedDelegationToken41.first 2 y)) ∨ (r = DescribedDelegationToken41.first 3 y)) ∨ (r = DescribedDelegationToken41.first 4 y)) ∨ (r = DescribedDelegationToken41.first 5 y)) ∨ (r = DescribedDelegationToken41.first 6 y)) ∨ (r = DescribedDelegationToken41.first 7 y ∨ Cut.begun {} (fun t => t.Renewers) (fun t x => { t with Renewers := x }) (DescribedDelegationToken41.first 7) r y))) : DescribedDelegationToken41.Part r y :=
  match h with
    | (.inl (.inl (.inl (.inl (.inl (.inl (.inl h))))))) => .inl ⟨0, by decide, h⟩
    | (.inl (.inl (.inl (.inl (.inl (.inl (.inr h))))))) => .inl ⟨1, by decide, h⟩
    | (.inl (.inl (.inl (.inl (.inl (.inr h)))))) => .inl ⟨2, by decide, h⟩
    | (.inl (.inl (.inl (.inl (.inr h))))) => .inl ⟨3, by decide, h⟩
    | (.inl (.inl (.inl (.inr h)))) => .inl ⟨4, by decide, h⟩
    | (.inl (.inl (.inr h))) => .inl ⟨5, by decide, h⟩
    | (.inl (.inr h)) => .inl ⟨6, by decide, h⟩
    | (.inr (.inl h)) => .inl ⟨7, by decide, h⟩
    | (.inr (.inr h)) => (.inr h)
theorem DescribedDelegationToken41.keeps_holds : DescribedDelegationToken41.keeps.Holds DescribedDelegationToken41.layout :=
  KeptMsg.holds DescribedDelegationToken41.lawful DescribedDelegationToken41.sameK (stop := fun v t => DescribedDelegationToken41.ends v t 7) (c := fun v t => DescribedDelegationToken41.cutAt v t 0) (fun _ _ _ => rfl) DescribedDelegationToken41.cutsK (c0 := DescribedDelegationToken41.first 0) rfl DescribedDelegationToken41.partsK DescribedDelegationToken41.part_of DescribedDelegationToken41.filled (by decide) (by decide)

/-- message/messages.gen.go:10330-10354 `DescribeDelegationTokenResponse.Decode`, with the receiver kept -/
def DescribeDelegationTokenResponse.decodeK (version : Int16) : KDec DescribeDelegationTokenResponse :=
    KDec.field Dec.int16 0 (fun t x => { t with ErrorCode := x }) ;|>
    KDec.fieldStructs (DescribedDelegationToken41.decodeK version {}) {} (fun t x => { t with Tokens := x }) ;|>
    KDec.field Dec.int32 0 (fun t x => { t with ThrottleTimeMs := x })

/-- Where the fields of `DescribeDelegationTokenResponse` end. -/
def DescribeDelegationTokenResponse.ends (version : Int16) (t : DescribeDelegationTokenResponse) : Nat → Nat :=
  Cut.ends 0 [Wire.int16 t.ErrorCode,
    Wire.array (DescribedDelegationToken41.wire version) t.Tokens,
    Wire.int32 t.ThrottleTimeMs]

/-- What is left of `t` if only its first `n` bytes are there. -/
def DescribeDelegationTokenResponse.cut (version : Int16) (n : Nat) (t : DescribeDelegationTokenResponse) : DescribeDelegationTokenResponse :=
  { ErrorCode := Cut.field n (t.ends version 0) t.ErrorCode 0,
    Tokens := Cut.array n (t.ends version 0) (DescribedDelegationToken41.wire version) (fun x => x.seen version {}) {} t.Tokens,
    ThrottleTimeMs := Cut.field n (t.ends version 2) t.ThrottleTimeMs 0 }

/-- The same after the first `k` statements of `Decode`. -/
def DescribeDelegationTokenResponse.cutAt (version : Int16) (t : DescribeDelegationTokenResponse) (k n : Nat) : DescribeDelegationTokenResponse :=
  { ErrorCode := upto k 0 (Cut.field n (t.ends version 0) t.ErrorCode 0) 0,
    Tokens := upto k 1 (Cut.array n (t.ends version 0) (DescribedDelegationToken41.wire version) (fun x => x.seen version {}) {} t.Tokens) none,
    ThrottleTimeMs := upto k 2 (Cut.field n (t.ends version 2) t.ThrottleTimeMs 0) 0 }

/-- The first `k` fields of `y`, and zeros. -/
def DescribeDelegationTokenResponse.first (k : Nat) (y : DescribeDelegationTokenResponse) : DescribeDelegationTokenResponse :=
  { ErrorCode := upto k 0 y.ErrorCode 0,
    Tokens := upto k 1 y.Tokens none,
    ThrottleTimeMs := upto k 2 y.ThrottleTimeMs 0 }

/-- `r` is a beginning of `y`, and zeros. -/
def DescribeDelegationTokenResponse.Part (r y : DescribeDelegationTokenResponse) : Prop :=
  (∃ k, k < 3 ∧ r = y.first k) ∨
    Cut.begun {} (fun t => t.Tokens) (fun t x => { t with Tokens := x }) (DescribeDelegationTokenResponse.first 1) r y

/-- `DescribeDelegationTokenResponse` with its receiver kept. -/
def DescribeDelegationTokenResponse.keeps : KeptMsg DescribeDelegationTokenResponse.type := { decode := DescribeDelegationTokenResponse.decodeK, cut := DescribeDelegationTokenResponse.cut, Part := DescribeDelegationTokenResponse.Part }

theorem DescribeDelegationTokenResponse.sameK (version : Int16) : KStep (DescribeDelegationTokenResponse.decodeK version) (DescribeDelegationTokenResponse.decode version) :=
  (KStep.field)
    |>.andThen (KStep.structs (fun _ => rfl) (DescribedDelegationToken41.sameK version {}))
    |>.andThen (KStep.field)
theorem DescribeDelegationTokenResponse.cutsK (version : Int16) (t : DescribeDelegationTokenResponse) (h : t.Fits version) :
    Cuts (DescribeDelegationTokenResponse.decodeK version) 0 (DescribeDelegationTokenResponse.wire version t) (DescribeDelegationTokenResponse.ends version t 2) (DescribeDelegationTokenResponse.cutAt version t 0) (DescribeDelegationTokenResponse.cutAt version t 3) :=
  (.field (reads_int16 t.ErrorCode) (fun _ => rfl) (fun _ => rfl) : Cuts _ 0 _ (DescribeDelegationTokenResponse.ends version t 0) (DescribeDelegationTokenResponse.cutAt version t 0) (DescribeDelegationTokenResponse.cutAt version t 1))
    |>.andThen (.structs (DescribedDelegationToken41.sameK version {}) (fun x hx => DescribedDelegationToken41.reads version x hx {}) h.Tokens (fun _ => rfl) (fun _ => rfl) : Cuts _ (DescribeDelegationTokenResponse.ends version t 0) _ (DescribeDelegationTokenResponse.ends version t 1) (DescribeDelegationTokenResponse.cutAt version t 1) (DescribeDelegationTokenResponse.cutAt version t 2))
    |>.andThen (.field (reads_int32 t.ThrottleTimeMs) (fun _ => rfl) (fun _ => rfl) : Cuts _ (DescribeDelegationTokenResponse.ends version t 1) _ (DescribeDelegationTokenResponse.ends version t 2) (DescribeDelegationTokenResponse.cutAt version t 2) (DescribeDelegationTokenResponse.cutAt version t 3))
theorem DescribeDelegationTokenResponse.partsK (version : Int16) : Parts (DescribeDelegationTokenResponse.decodeK version) (DescribeDelegationTokenResponse.first 0) (DescribeDelegationTokenResponse.first 3) (fun r y => (((r = DescribeDelegationTokenResponse.first 0 y) ∨ (r = DescribeDelegationTokenResponse.first 1 y ∨ Cut.begun {} (fun t => t.Tokens) (fun t x => { t with Tokens := x }) (DescribeDelegationTokenResponse.first 1) r y)) ∨ (r = DescribeDelegationTokenResponse.first 2 y))) :=
  (.field Longer.int16 (fun _ => rfl) (fun _ _ => rfl) (fun _ _ => rfl) (fun _ => rfl) : Parts (KDec.field Dec.int16 0 (fun t x => { t with ErrorCode := x })) (DescribeDelegationTokenResponse.first 0) (DescribeDelegationTokenResponse.first 1) (fun r y => r = DescribeDelegationTokenResponse.first 0 y))
    |>.andThen (.structs (get := fun (t : DescribeDelegationTokenResponse) => t.Tokens) ((DescribedDelegationToken41.partsK version).longer {}) (fun _ => rfl) (fun _ => rfl) (fun _ _ => rfl) (fun _ _ => rfl) (fun _ _ => rfl) (fun _ => rfl) (fun _ => rfl) : Parts (KDec.fieldStructs (DescribedDelegationToken41.decodeK version {}) {} (fun t x => { t with Tokens := x })) (DescribeDelegationTokenResponse.first 1) (DescribeDelegationTokenResponse.first 2) (fun r y => r = DescribeDelegationTokenResponse.first 1 y ∨ Cut.begun {} (fun t => t.Tokens) (fun t x => { t with Tokens := x }) (DescribeDelegationTokenResponse.first 1) r y))
    |>.andThen (.field Longer.int32 (fun _ => rfl) (fun _ _ => rfl) (fun _ _ => rfl) (fun _ => rfl) : Parts (KDec.field Dec.int32 0 (fun t x => { t with ThrottleTimeMs := x })) (DescribeDelegationTokenResponse.first 2) (DescribeDelegationTokenResponse.first 3) (fun r y => r = DescribeDelegationTokenResponse.first 2 y))
theorem DescribeDelegationTokenResponse.filled (version : Int16) : FilledStep 10 90194346000 (DescribeDelegationTokenResponse.decode version) :=
  ((FilledStep.field .int16)
    |>.andThen (FilledStep.structs (DescribedDelegationToken41.filled version {}))
    |>.andThen (FilledStep.field .int32)).mono (by decide) (by decide)
theorem DescribeDelegationTokenResponse.part_of (r y : DescribeDelegationTokenResponse) (h : (((r = DescribeDelegationTokenResponse.first 0 y) ∨ (r = DescribeDelegationTokenResponse.first 1 y ∨ Cut.begun {} (fun t => t.Tokens) (fun t x => { t with Tokens := x }) (DescribeDelegationTokenResponse.first 1) r y)) ∨ (r = DescribeDelegationTokenResponse.first 2 y))) : DescribeDelegationTokenResponse.Part r y :=
  match h with
    | (.inl (.inl h)) => .inl ⟨0, by decide, h⟩
    | (.inl (.inr (.inl h))) => .inl ⟨1, by decide, h⟩
    | (.inl (.inr (.inr h))) => (.inr h)
    | (.inr h) => .inl ⟨2, by decide, h⟩
theorem DescribeDelegationTokenResponse.keeps_holds : DescribeDelegationTokenResponse.keeps.Holds DescribeDelegationTokenResponse.layout :=
  KeptMsg.holds DescribeDelegationTokenResponse.lawful DescribeDelegationTokenResponse.sameK (stop := fun v t => DescribeDelegationTokenResponse.ends v t 2) (c := fun v t => DescribeDelegationTokenResponse.cutAt v t 0) (fun _ _ _ => rfl) DescribeDelegationTokenResponse.cutsK (c0 := DescribeDelegationTokenResponse.first 0) rfl DescribeDelegationTokenResponse.partsK DescribeDelegationTokenResponse.part_of DescribeDelegationTokenResponse.filled (by decide) (by decide)

/-- The structures of the DescribeDelegationToken messages. -/
def keptDescribeDelegationToken : List (Σ (M : MsgType) (_ : Layout M), KeptMsg M) :=
  [⟨DescribeDelegationTokenRequest.type, DescribeDelegationTokenRequest.layout, DescribeDelegationTokenRequest.keeps⟩,
   ⟨DescribeDelegationTokenOwner41.type, DescribeDelegationTokenOwner41.layout, DescribeDelegationTokenOwner41.keeps⟩,
   ⟨DescribeDelegationTokenResponse.type, DescribeDelegationTokenResponse.layout, DescribeDelegationTokenResponse.keeps⟩,
   ⟨DescribedDelegationToken41.type, DescribedDelegationToken41.layout, DescribedDelegationToken41.keeps⟩,
   ⟨DescribedDelegationTokenRenewer41.type, DescribedDelegationTokenRenewer41.layout, DescribedDelegationTokenRenewer41.keeps⟩]
theorem keptDescribeDelegationToken_holds : ∀ p ∈ keptDescribeDelegationToken, p.2.2.Holds p.2.1 := by
  unfold keptDescribeDelegationToken
  simp only [List.forall_mem_cons]
  exact ⟨DescribeDelegationTokenRequest.keeps_holds, DescribeDelegationTokenOwner41.keeps_holds, DescribeDelegationTokenResponse.keeps_holds, DescribedDelegationToken41.keeps_holds, DescribedDelegationTokenRenewer41.keeps_holds, fun _ h => absurd h (by simp)⟩

end Kafka.Msg
