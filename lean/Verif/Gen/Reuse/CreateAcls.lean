import Verif.Message.Reuse
import Verif.Gen.Spec.CreateAcls
/-!
Generated by tools/gen_messages.py: decoding into CreateAcls messages used before.
-/
set_option linter.unusedSimpArgs false
set_option linter.unusedVariables false
namespace Kafka.Msg

/-- What `t0` becomes where a new `CreatableAcl30` becomes `y`. -/
def CreatableAcl30.over (version : Int16) (y t0 : CreatableAcl30) : CreatableAcl30 :=
  { ResourceType := y.ResourceType,
    ResourceName := y.ResourceName,
    ResourcePatternType := if version ≥ 1 then y.ResourcePatternType else t0.ResourcePatternType,
    Principal := y.Principal,
    Host := y.Host,
    Operation := y.Operation,
    PermissionType := y.PermissionType }

/-- An array of structures is nil. -/
def CreatableAcl30.Nulls (_version : Int16) (_y : CreatableAcl30) : Prop :=
  False

/-- `CreatableAcl30` in use again. -/
def CreatableAcl30.reuse : Reuse CreatableAcl30.type := { over := CreatableAcl30.over, Nulls := CreatableAcl30.Nulls }

/-- The same after the first `k` statements of `Decode`. -/
def CreatableAcl30.overAt (version : Int16) (k : Nat) (y t0 : CreatableAcl30) : CreatableAcl30 :=
  { ResourceType := upto k 0 (y.ResourceType) t0.ResourceType,
    ResourceName := upto k 1 (y.ResourceName) t0.ResourceName,
    ResourcePatternType := upto k 2 (if version ≥ 1 then y.ResourcePatternType else t0.ResourcePatternType) t0.ResourcePatternType,
    Principal := upto k 3 (y.Principal) t0.Principal,
    Host := upto k 4 (y.Host) t0.Host,
    Operation := upto k 5 (y.Operation) t0.Operation,
    PermissionType := upto k 6 (y.PermissionType) t0.PermissionType }

theorem CreatableAcl30.sim (v : Int16) (t0 : CreatableAcl30) : Sim (CreatableAcl30.overAt v 0 · t0) (CreatableAcl30.overAt v 7 · t0) (CreatableAcl30.decode v) :=
  ((.field fun _ _ => rfl) : Sim (CreatableAcl30.overAt v 0 · t0) (CreatableAcl30.overAt v 1 · t0) _)
    |>.andThen ((.field fun _ _ => rfl) : Sim (CreatableAcl30.overAt v 1 · t0) (CreatableAcl30.overAt v 2 · t0) _)
    |>.andThen ((.onlyIf (fun hc => .field fun _ _ => by simp only [CreatableAcl30.overAt, if_pos hc]; rfl) fun hc _ => by simp only [CreatableAcl30.overAt, if_neg hc]; rfl) : Sim (CreatableAcl30.overAt v 2 · t0) (CreatableAcl30.overAt v 3 · t0) _)
    |>.andThen ((.field fun _ _ => rfl) : Sim (CreatableAcl30.overAt v 3 · t0) (CreatableAcl30.overAt v 4 · t0) _)
    |>.andThen ((.field fun _ _ => rfl) : Sim (CreatableAcl30.overAt v 4 · t0) (CreatableAcl30.overAt v 5 · t0) _)
    |>.andThen ((.field fun _ _ => rfl) : Sim (CreatableAcl30.overAt v 5 · t0) (CreatableAcl30.overAt v 6 · t0) _)
    |>.andThen ((.field fun _ _ => rfl) : Sim (CreatableAcl30.overAt v 6 · t0) (CreatableAcl30.overAt v 7 · t0) _)
theorem CreatableAcl30.reusable : CreatableAcl30.reuse.Holds CreatableAcl30.layout where
  decode v t0 d := by
    have h := CreatableAcl30.sim v t0 {} d
    have e : CreatableAcl30.overAt v 0 {} t0 = t0 := by first | rfl | (simp only [CreatableAcl30.overAt, upto_zero, Option.none_or, ite_self] <;> rfl)
    simp only [e] at h
    exact h
  same v y t0 _h := (app_congr (app_congr (app_congr (app_congr (app_congr (app_congr rfl rfl) (again_opt Wire.int8 y.ResourcePatternType t0.ResourcePatternType)) rfl) rfl) rfl) rfl)
  stale _ _ h := h.elim

/-- What `t0` becomes where a new `CreateAclsRequest` becomes `y`. -/
def CreateAclsRequest.over (_version : Int16) (y t0 : CreateAclsRequest) : CreateAclsRequest :=
  { Creations := y.Creations.or t0.Creations }

/-- An array of structures is nil. -/
def CreateAclsRequest.Nulls (_version : Int16) (y : CreateAclsRequest) : Prop :=
  y.Creations = none

/-- `CreateAclsRequest` in use again. -/
def CreateAclsRequest.reuse : Reuse CreateAclsRequest.type := { over := CreateAclsRequest.over, Nulls := CreateAclsRequest.Nulls }

/-- The same after the first `k` statements of `Decode`. -/
def CreateAclsRequest.overAt (_version : Int16) (_k : Nat) (y t0 : CreateAclsRequest) : CreateAclsRequest :=
  { Creations := y.Creations.or t0.Creations }

theorem CreateAclsRequest.sim (v : Int16) (t0 : CreateAclsRequest) : Sim (CreateAclsRequest.overAt v 0 · t0) (CreateAclsRequest.overAt v 1 · t0) (CreateAclsRequest.decode v) :=
  ((.structs (fun _ _ => rfl) fun _ => rfl) : Sim (CreateAclsRequest.overAt v 0 · t0) (CreateAclsRequest.overAt v 1 · t0) _)
theorem CreateAclsRequest.reusable : CreateAclsRequest.reuse.Holds CreateAclsRequest.layout where
  decode v t0 d := by
    have h := CreateAclsRequest.sim v t0 {} d
    have e : CreateAclsRequest.overAt v 0 {} t0 = t0 := by first | rfl | (simp only [CreateAclsRequest.overAt, upto_zero, Option.none_or, ite_self] <;> rfl)
    simp only [e] at h
    exact h
  same v y t0 h := (same_or fun hn => h (hn))
  stale v y h := by
    obtain h := h
    · exact ⟨({ Creations := some [{}] } : CreateAclsRequest), (stale_or h)⟩

/-- What `t0` becomes where a new `CreatableAclResult30` becomes `y`. -/
def CreatableAclResult30.over (_version : Int16) (y _t0 : CreatableAclResult30) : CreatableAclResult30 :=
  { ErrorCode := y.ErrorCode,
    ErrorMessage := y.ErrorMessage }

/-- An array of structures is nil. -/
def CreatableAclResult30.Nulls (_version : Int16) (_y : CreatableAclResult30) : Prop :=
  False

/-- `CreatableAclResult30` in use again. -/
def CreatableAclResult30.reuse : Reuse CreatableAclResult30.type := { over := CreatableAclResult30.over, Nulls := CreatableAclResult30.Nulls }

/-- The same after the first `k` statements of `Decode`. -/
def CreatableAclResult30.overAt (_version : Int16) (k : Nat) (y t0 : CreatableAclResult30) : CreatableAclResult30 :=
  { ErrorCode := upto k 0 (y.ErrorCode) t0.ErrorCode,
    ErrorMessage := upto k 1 (y.ErrorMessage) t0.ErrorMessage }

theorem CreatableAclResult30.sim (v : Int16) (t0 : CreatableAclResult30) : Sim (CreatableAclResult30.overAt v 0 · t0) (CreatableAclResult30.overAt v 2 · t0) (CreatableAclResult30.decode v) :=
  ((.field fun _ _ => rfl) : Sim (CreatableAclResult30.overAt v 0 · t0) (CreatableAclResult30.overAt v 1 · t0) _)
    |>.andThen ((.field fun _ _ => rfl) : Sim (CreatableAclResult30.overAt v 1 · t0) (CreatableAclResult30.overAt v 2 · t0) _)
theorem CreatableAclResult30.reusable : CreatableAclResult30.reuse.Holds CreatableAclResult30.layout where
  decode v t0 d := by
    have h := CreatableAclResult30.sim v t0 {} d
    have e : CreatableAclResult30.overAt v 0 {} t0 = t0 := by first | rfl | (simp only [CreatableAclResult30.overAt, upto_zero, Option.none_or, ite_self] <;> rfl)
    simp only [e] at h
    exact h
  same v y t0 _h := (app_congr rfl rfl)
  stale _ _ h := h.elim

/-- What `t0` becomes where a new `CreateAclsResponse` becomes `y`. -/
def CreateAclsResponse.over (_version : Int16) (y t0 : CreateAclsResponse) : CreateAclsResponse :=
  { ThrottleTimeMs := y.ThrottleTimeMs,
    Results := y.Results.or t0.Results }

/-- An array of structures is nil. -/
def CreateAclsResponse.Nulls (_version : Int16) (y : CreateAclsResponse) : Prop :=
  y.Results = none

/-- `CreateAclsResponse` in use again. -/
def CreateAclsResponse.reuse : Reuse CreateAclsResponse.type := { over := CreateAclsResponse.over, Nulls := CreateAclsResponse.Nulls }

/-- The same after the first `k` statements of `Decode`. -/
def CreateAclsResponse.overAt (_version : Int16) (k : Nat) (y t0 : CreateAclsResponse) : CreateAclsResponse :=
  { ThrottleTimeMs := upto k 0 (y.ThrottleTimeMs) t0.ThrottleTimeMs,
    Results := y.Results.or t0.Results }

theorem CreateAclsResponse.sim (v : Int16) (t0 : CreateAclsResponse) : Sim (CreateAclsResponse.overAt v 0 · t0) (CreateAclsResponse.overAt v 2 · t0) (CreateAclsResponse.decode v) :=
  ((.field fun _ _ => rfl) : Sim (CreateAclsResponse.overAt v 0 · t0) (CreateAclsResponse.overAt v 1 · t0) _)
    |>.andThen ((.structs (fun _ _ => rfl) fun _ => rfl) : Sim (CreateAclsResponse.overAt v 1 · t0) (CreateAclsResponse.overAt v 2 · t0) _)
theorem CreateAclsResponse.reusable : CreateAclsResponse.reuse.Holds CreateAclsResponse.layout where
  decode v t0 d := by
    have h := CreateAclsResponse.sim v t0 {} d
    have e : CreateAclsResponse.overAt v 0 {} t0 = t0 := by first | rfl | (simp only [CreateAclsResponse.overAt, upto_zero, Option.none_or, ite_self] <;> rfl)
    simp only [e] at h
    exact h
  same v y t0 h := (app_congr rfl (same_or fun hn => h (hn)))
  stale v y h := by
    obtain h := h
    · exact ⟨({ Results := some [{}] } : CreateAclsResponse), (app_ne_right rfl (stale_or h))⟩

/-- The structures of the CreateAcls messages. -/
def reuseCreateAcls : List (Σ (M : MsgType) (_ : Layout M), Reuse M) :=
  [⟨CreateAclsRequest.type, CreateAclsRequest.layout, CreateAclsRequest.reuse⟩,
   ⟨CreatableAcl30.type, CreatableAcl30.layout, CreatableAcl30.reuse⟩,
   ⟨CreateAclsResponse.type, CreateAclsResponse.layout, CreateAclsResponse.reuse⟩,
   ⟨CreatableAclResult30.type, CreatableAclResult30.layout, CreatableAclResult30.reuse⟩]
theorem reuseCreateAcls_holds : ∀ p ∈ reuseCreateAcls, p.2.2.Holds p.2.1 := by
  unfold reuseCreateAcls
  simp only [List.forall_mem_cons]
  exact ⟨CreateAclsRequest.reusable, CreatableAcl30.reusable, CreateAclsResponse.reusable, CreatableAclResult30.reusable, fun _ h => absurd h (by simp)⟩

end Kafka.Msg
