import Verif.Message.Reuse
import Verif.Gen.Spec.DescribeAcls
/-!
Generated by tools/gen_messages.py: decoding into DescribeAcls messages used before.
-/
set_option linter.unusedSimpArgs false
set_option linter.unusedVariables false
namespace Kafka.Msg

/-- What `t0` becomes where a new `DescribeAclsRequest` becomes `y`. -/
def DescribeAclsRequest.over (version : Int16) (y t0 : DescribeAclsRequest) : DescribeAclsRequest :=
  { ResourceType := y.ResourceType,
    ResourceNameFilter := y.ResourceNameFilter,
    ResourcePatternType := if version ≥ 1 then y.ResourcePatternType else t0.ResourcePatternType,
    PrincipalFilter := y.PrincipalFilter,
    HostFilter := y.HostFilter,
    Operation := y.Operation,
    PermissionType := y.PermissionType }

/-- An array of structures is nil. -/
def DescribeAclsRequest.Nulls (_version : Int16) (_y : DescribeAclsRequest) : Prop :=
  False

/-- `DescribeAclsRequest` in use again. -/
def DescribeAclsRequest.reuse : Reuse DescribeAclsRequest.type := { over := DescribeAclsRequest.over, Nulls := DescribeAclsRequest.Nulls }

/-- The same after the first `k` statements of `Decode`. -/
def DescribeAclsRequest.overAt (version : Int16) (k : Nat) (y t0 : DescribeAclsRequest) : DescribeAclsRequest :=
  { ResourceType := upto k 0 (y.ResourceType) t0.ResourceType,
    ResourceNameFilter := upto k 1 (y.ResourceNameFilter) t0.ResourceNameFilter,
    ResourcePatternType := upto k 2 (if version ≥ 1 then y.ResourcePatternType else t0.ResourcePatternType) t0.ResourcePatternType,
    PrincipalFilter := upto k 3 (y.PrincipalFilter) t0.PrincipalFilter,
    HostFilter := upto k 4 (y.HostFilter) t0.HostFilter,
    Operation := upto k 5 (y.Operation) t0.Operation,
    PermissionType := upto k 6 (y.PermissionType) t0.PermissionType }

theorem DescribeAclsRequest.sim (v : Int16) (t0 : DescribeAclsRequest) : Sim (DescribeAclsRequest.overAt v 0 · t0) (DescribeAclsRequest.overAt v 7 · t0) (DescribeAclsRequest.decode v) :=
  ((.field fun _ _ => rfl) : Sim (DescribeAclsRequest.overAt v 0 · t0) (DescribeAclsRequest.overAt v 1 · t0) _)
    |>.andThen ((.field fun _ _ => rfl) : Sim (DescribeAclsRequest.overAt v 1 · t0) (DescribeAclsRequest.overAt v 2 · t0) _)
    |>.andThen ((.onlyIf (fun hc => .field fun _ _ => by simp only [DescribeAclsRequest.overAt, if_pos hc]; rfl) fun hc _ => by simp only [DescribeAclsRequest.overAt, if_neg hc]; rfl) : Sim (DescribeAclsRequest.overAt v 2 · t0) (DescribeAclsRequest.overAt v 3 · t0) _)
    |>.andThen ((.field fun _ _ => rfl) : Sim (DescribeAclsRequest.overAt v 3 · t0) (DescribeAclsRequest.overAt v 4 · t0) _)
    |>.andThen ((.field fun _ _ => rfl) : Sim (DescribeAclsRequest.overAt v 4 · t0) (DescribeAclsRequest.overAt v 5 · t0) _)
    |>.andThen ((.field fun _ _ => rfl) : Sim (DescribeAclsRequest.overAt v 5 · t0) (DescribeAclsRequest.overAt v 6 · t0) _)
    |>.andThen ((.field fun _ _ => rfl) : Sim (DescribeAclsRequest.overAt v 6 · t0) (DescribeAclsRequest.overAt v 7 · t0) _)
theorem DescribeAclsRequest.reusable : DescribeAclsRequest.reuse.Holds DescribeAclsRequest.layout where
  decode v t0 d := by
    have h := DescribeAclsRequest.sim v t0 {} d
    have e : DescribeAclsRequest.overAt v 0 {} t0 = t0 := by first | rfl | (simp only [DescribeAclsRequest.overAt, upto_zero, Option.none_or, ite_self] <;> rfl)
    simp only [e] at h
    exact h
  same v y t0 _h := (app_congr (app_congr (app_congr (app_congr (app_congr (app_congr rfl rfl) (again_opt Wire.int8 y.ResourcePatternType t0.ResourcePatternType)) rfl) rfl) rfl) rfl)
  stale _ _ h := h.elim

/-- What `t0` becomes where a new `AclDescription29` becomes `y`. -/
def AclDescription29.over (_version : Int16) (y _t0 : AclDescription29) : AclDescription29 :=
  { Principal := y.Principal,
    Host := y.Host,
    Operation := y.Operation,
    PermissionType := y.PermissionType }

/-- An array of structures is nil. -/
def AclDescription29.Nulls (_version : Int16) (_y : AclDescription29) : Prop :=
  False

/-- `AclDescription29` in use again. -/
def AclDescription29.reuse : Reuse AclDescription29.type := { over := AclDescription29.over, Nulls := AclDescription29.Nulls }

/-- The same after the first `k` statements of `Decode`. -/
def AclDescription29.overAt (_version : Int16) (k : Nat) (y t0 : AclDescription29) : AclDescription29 :=
  { Principal := upto k 0 (y.Principal) t0.Principal,
    Host := upto k 1 (y.Host) t0.Host,
    Operation := upto k 2 (y.Operation) t0.Operation,
    PermissionType := upto k 3 (y.PermissionType) t0.PermissionType }

theorem AclDescription29.sim (v : Int16) (t0 : AclDescription29) : Sim (AclDescription29.overAt v 0 · t0) (AclDescription29.overAt v 4 · t0) (AclDescription29.decode v) :=
  ((.field fun _ _ => rfl) : Sim (AclDescription29.overAt v 0 · t0) (AclDescription29.overAt v 1 · t0) _)
    |>.andThen ((.field fun _ _ => rfl) : Sim (AclDescription29.overAt v 1 · t0) (AclDescription29.overAt v 2 · t0) _)
    |>.andThen ((.field fun _ _ => rfl) : Sim (AclDescription29.overAt v 2 · t0) (AclDescription29.overAt v 3 · t0) _)
    |>.andThen ((.field fun _ _ => rfl) : Sim (AclDescription29.overAt v 3 · t0) (AclDescription29.overAt v 4 · t0) _)
theorem AclDescription29.reusable : AclDescription29.reuse.Holds AclDescription29.layout where
  decode v t0 d := by
    have h := AclDescription29.sim v t0 {} d
    have e : AclDescription29.overAt v 0 {} t0 = t0 := by first | rfl | (simp only [AclDescription29.overAt, upto_zero, Option.none_or, ite_self] <;> rfl)
    simp only [e] at h
    exact h
  same v y t0 _h := (app_congr (app_congr (app_congr rfl rfl) rfl) rfl)
  stale _ _ h := h.elim

/-- What `t0` becomes where a new `DescribeAclsResource29` becomes `y`. -/
def DescribeAclsResource29.over (version : Int16) (y t0 : DescribeAclsResource29) : DescribeAclsResource29 :=
  { «Type» := y.«Type»,
    Name := y.Name,
    PatternType := if version ≥ 1 then y.PatternType else t0.PatternType,
    Acls := y.Acls.or t0.Acls }

/-- An array of structures is nil. -/
def DescribeAclsResource29.Nulls (_version : Int16) (y : DescribeAclsResource29) : Prop :=
  y.Acls = none

/-- `DescribeAclsResource29` in use again. -/
def DescribeAclsResource29.reuse : Reuse DescribeAclsResource29.type := { over := DescribeAclsResource29.over, Nulls := DescribeAclsResource29.Nulls }

/-- The same after the first `k` statements of `Decode`. -/
def DescribeAclsResource29.overAt (version : Int16) (k : Nat) (y t0 : DescribeAclsResource29) : DescribeAclsResource29 :=
  { «Type» := upto k 0 (y.«Type») t0.«Type»,
    Name := upto k 1 (y.Name) t0.Name,
    PatternType := upto k 2 (if version ≥ 1 then y.PatternType else t0.PatternType) t0.PatternType,
    Acls := y.Acls.or t0.Acls }

theorem DescribeAclsResource29.sim (v : Int16) (t0 : DescribeAclsResource29) : Sim (DescribeAclsResource29.overAt v 0 · t0) (DescribeAclsResource29.overAt v 4 · t0) (DescribeAclsResource29.decode v) :=
  ((.field fun _ _ => rfl) : Sim (DescribeAclsResource29.overAt v 0 · t0) (DescribeAclsResource29.overAt v 1 · t0) _)
    |>.andThen ((.field fun _ _ => rfl) : Sim (DescribeAclsResource29.overAt v 1 · t0) (DescribeAclsResource29.overAt v 2 · t0) _)
    |>.andThen ((.onlyIf (fun hc => .field fun _ _ => by simp only [DescribeAclsResource29.overAt, if_pos hc]; rfl) fun hc _ => by simp only [DescribeAclsResource29.overAt, if_neg hc]; rfl) : Sim (DescribeAclsResource29.overAt v 2 · t0) (DescribeAclsResource29.overAt v 3 · t0) _)
    |>.andThen ((.structs (fun _ _ => rfl) fun _ => rfl) : Sim (DescribeAclsResource29.overAt v 3 · t0) (DescribeAclsResource29.overAt v 4 · t0) _)
theorem DescribeAclsResource29.reusable : DescribeAclsResource29.reuse.Holds DescribeAclsResource29.layout where
  decode v t0 d := by
    have h := DescribeAclsResource29.sim v t0 {} d
    have e : DescribeAclsResource29.overAt v 0 {} t0 = t0 := by first | rfl | (simp only [DescribeAclsResource29.overAt, upto_zero, Option.none_or, ite_self] <;> rfl)
    simp only [e] at h
    exact h
  same v y t0 h := (app_congr (app_congr (app_congr rfl rfl) (again_opt Wire.int8 y.PatternType t0.PatternType)) (same_or fun hn => h (hn)))
  stale v y h := by
    obtain h := h
    · exact ⟨({ Acls := some [{}] } : DescribeAclsResource29), (app_ne_right (app_congr (app_congr rfl rfl) (again_opt Wire.int8 y.PatternType 0)) (stale_or h))⟩

/-- What `t0` becomes where a new `DescribeAclsResponse` becomes `y`. -/
def DescribeAclsResponse.over (_version : Int16) (y t0 : DescribeAclsResponse) : DescribeAclsResponse :=
  { ThrottleTimeMs := y.ThrottleTimeMs,
    ErrorCode := y.ErrorCode,
    ErrorMessage := y.ErrorMessage,
    Resources := y.Resources.or t0.Resources }

/-- An array of structures is nil. -/
def DescribeAclsResponse.Nulls (_version : Int16) (y : DescribeAclsResponse) : Prop :=
  y.Resources = none

/-- `DescribeAclsResponse` in use again. -/
def DescribeAclsResponse.reuse : Reuse DescribeAclsResponse.type := { over := DescribeAclsResponse.over, Nulls := DescribeAclsResponse.Nulls }

/-- The same after the first `k` statements of `Decode`. -/
def DescribeAclsResponse.overAt (_version : Int16) (k : Nat) (y t0 : DescribeAclsResponse) : DescribeAclsResponse :=
  { ThrottleTimeMs := upto k 0 (y.ThrottleTimeMs) t0.ThrottleTimeMs,
    ErrorCode := upto k 1 (y.ErrorCode) t0.ErrorCode,
    ErrorMessage := upto k 2 (y.ErrorMessage) t0.ErrorMessage,
    Resources := y.Resources.or t0.Resources }

theorem DescribeAclsResponse.sim (v : Int16) (t0 : DescribeAclsResponse) : Sim (DescribeAclsResponse.overAt v 0 · t0) (DescribeAclsResponse.overAt v 4 · t0) (DescribeAclsResponse.decode v) :=
  ((.field fun _ _ => rfl) : Sim (DescribeAclsResponse.overAt v 0 · t0) (DescribeAclsResponse.overAt v 1 · t0) _)
    |>.andThen ((.field fun _ _ => rfl) : Sim (DescribeAclsResponse.overAt v 1 · t0) (DescribeAclsResponse.overAt v 2 · t0) _)
    |>.andThen ((.field fun _ _ => rfl) : Sim (DescribeAclsResponse.overAt v 2 · t0) (DescribeAclsResponse.overAt v 3 · t0) _)
    |>.andThen ((.structs (fun _ _ => rfl) fun _ => rfl) : Sim (DescribeAclsResponse.overAt v 3 · t0) (DescribeAclsResponse.overAt v 4 · t0) _)
theorem DescribeAclsResponse.reusable : DescribeAclsResponse.reuse.Holds DescribeAclsResponse.layout where
  decode v t0 d := by
    have h := DescribeAclsResponse.sim v t0 {} d
    have e : DescribeAclsResponse.overAt v 0 {} t0 = t0 := by first | rfl | (simp only [DescribeAclsResponse.overAt, upto_zero, Option.none_or, ite_self] <;> rfl)
    simp only [e] at h
    exact h
  same v y t0 h := (app_congr (app_congr (app_congr rfl rfl) rfl) (same_or fun hn => h (hn)))
  stale v y h := by
    obtain h := h
    · exact ⟨({ Resources := some [{}] } : DescribeAclsResponse), (app_ne_right (app_congr (app_congr rfl rfl) rfl) (stale_or h))⟩

/-- The structures of the DescribeAcls messages. -/
def reuseDescribeAcls : List (Σ (M : MsgType) (_ : Layout M), Reuse M) :=
  [⟨DescribeAclsRequest.type, DescribeAclsRequest.layout, DescribeAclsRequest.reuse⟩,
   ⟨DescribeAclsResponse.type, DescribeAclsResponse.layout, DescribeAclsResponse.reuse⟩,
   ⟨DescribeAclsResource29.type, DescribeAclsResource29.layout, DescribeAclsResource29.reuse⟩,
   ⟨AclDescription29.type, AclDescription29.layout, AclDescription29.reuse⟩]
theorem reuseDescribeAcls_holds : ∀ p ∈ reuseDescribeAcls, p.2.2.Holds p.2.1 := by
  unfold reuseDescribeAcls
  simp only [List.forall_mem_cons]
  exact ⟨DescribeAclsRequest.reusable, DescribeAclsResponse.reusable, DescribeAclsResource29.reusable, AclDescription29.reusable, fun _ h => absurd h (by simp)⟩

end Kafka.Msg
