import Verif.Message.Reuse
import Verif.Gen.Spec.DeleteAcls
/-!
Generated by tools/gen_messages.py: decoding into DeleteAcls messages used before.
-/
set_option linter.unusedSimpArgs false
set_option linter.unusedVariables false
namespace Kafka.Msg

/-- What `t0` becomes where a new `DeleteAclsFilter31` becomes `y`. -/
def DeleteAclsFilter31.over (version : Int16) (y t0 : DeleteAclsFilter31) : DeleteAclsFilter31 :=
  { ResourceTypeFilter := y.ResourceTypeFilter,
    ResourceNameFilter := y.ResourceNameFilter,
    PatternTypeFilter := if version ≥ 1 then y.PatternTypeFilter else t0.PatternTypeFilter,
    PrincipalFilter := y.PrincipalFilter,
    HostFilter := y.HostFilter,
    Operation := y.Operation,
    PermissionType := y.PermissionType }

/-- An array of structures is nil. -/
def DeleteAclsFilter31.Nulls (_version : Int16) (_y : DeleteAclsFilter31) : Prop :=
  False

/-- `DeleteAclsFilter31` in use again. -/
def DeleteAclsFilter31.reuse : Reuse DeleteAclsFilter31.type := { over := DeleteAclsFilter31.over, Nulls := DeleteAclsFilter31.Nulls }

/-- The same after the first `k` statements of `Decode`. -/
def DeleteAclsFilter31.overAt (version : Int16) (k : Nat) (y t0 : DeleteAclsFilter31) : DeleteAclsFilter31 :=
  { ResourceTypeFilter := upto k 0 (y.ResourceTypeFilter) t0.ResourceTypeFilter,
    ResourceNameFilter := upto k 1 (y.ResourceNameFilter) t0.ResourceNameFilter,
    PatternTypeFilter := upto k 2 (if version ≥ 1 then y.PatternTypeFilter else t0.PatternTypeFilter) t0.PatternTypeFilter,
    PrincipalFilter := upto k 3 (y.PrincipalFilter) t0.PrincipalFilter,
    HostFilter := upto k 4 (y.HostFilter) t0.HostFilter,
    Operation := upto k 5 (y.Operation) t0.Operation,
    PermissionType := upto k 6 (y.PermissionType) t0.PermissionType }

theorem DeleteAclsFilter31.sim (v : Int16) (t0 : DeleteAclsFilter31) : Sim (DeleteAclsFilter31.overAt v 0 · t0) (DeleteAclsFilter31.overAt v 7 · t0) (DeleteAclsFilter31.decode v) :=
  ((.field fun _ _ => rfl) : Sim (DeleteAclsFilter31.overAt v 0 · t0) (DeleteAclsFilter31.overAt v 1 · t0) _)
    |>.andThen ((.field fun _ _ => rfl) : Sim (DeleteAclsFilter31.overAt v 1 · t0) (DeleteAclsFilter31.overAt v 2 · t0) _)
    |>.andThen ((.onlyIf (fun hc => .field fun _ _ => by simp only [DeleteAclsFilter31.overAt, if_pos hc]; rfl) fun hc _ => by simp only [DeleteAclsFilter31.overAt, if_neg hc]; rfl) : Sim (DeleteAclsFilter31.overAt v 2 · t0) (DeleteAclsFilter31.overAt v 3 · t0) _)
    |>.andThen ((.field fun _ _ => rfl) : Sim (DeleteAclsFilter31.overAt v 3 · t0) (DeleteAclsFilter31.overAt v 4 · t0) _)
    |>.andThen ((.field fun _ _ => rfl) : Sim (DeleteAclsFilter31.overAt v 4 · t0) (DeleteAclsFilter31.overAt v 5 · t0) _)
    |>.andThen ((.field fun _ _ => rfl) : Sim (DeleteAclsFilter31.overAt v 5 · t0) (DeleteAclsFilter31.overAt v 6 · t0) _)
    |>.andThen ((.field fun _ _ => rfl) : Sim (DeleteAclsFilter31.overAt v 6 · t0) (DeleteAclsFilter31.overAt v 7 · t0) _)
theorem DeleteAclsFilter31.reusable : DeleteAclsFilter31.reuse.Holds DeleteAclsFilter31.layout where
  decode v t0 d := by
    have h := DeleteAclsFilter31.sim v t0 {} d
    have e : DeleteAclsFilter31.overAt v 0 {} t0 = t0 := by first | rfl | (simp only [DeleteAclsFilter31.overAt, upto_zero, Option.none_or, ite_self] <;> rfl)
    simp only [e] at h
    exact h
  same v y t0 _h := (app_congr (app_congr (app_congr (app_congr (app_congr (app_congr rfl rfl) (again_opt Wire.int8 y.PatternTypeFilter t0.PatternTypeFilter)) rfl) rfl) rfl) rfl)
  stale _ _ h := h.elim

/-- What `t0` becomes where a new `DeleteAclsRequest` becomes `y`. -/
def DeleteAclsRequest.over (_version : Int16) (y t0 : DeleteAclsRequest) : DeleteAclsRequest :=
  { Filters := y.Filters.or t0.Filters }

/-- An array of structures is nil. -/
def DeleteAclsRequest.Nulls (_version : Int16) (y : DeleteAclsRequest) : Prop :=
  y.Filters = none

/-- `DeleteAclsRequest` in use again. -/
def DeleteAclsRequest.reuse : Reuse DeleteAclsRequest.type := { over := DeleteAclsRequest.over, Nulls := DeleteAclsRequest.Nulls }

/-- The same after the first `k` statements of `Decode`. -/
def DeleteAclsRequest.overAt (_version : Int16) (_k : Nat) (y t0 : DeleteAclsRequest) : DeleteAclsRequest :=
  { Filters := y.Filters.or t0.Filters }

theorem DeleteAclsRequest.sim (v : Int16) (t0 : DeleteAclsRequest) : Sim (DeleteAclsRequest.overAt v 0 · t0) (DeleteAclsRequest.overAt v 1 · t0) (DeleteAclsRequest.decode v) :=
  ((.structs (fun _ _ => rfl) fun _ => rfl) : Sim (DeleteAclsRequest.overAt v 0 · t0) (DeleteAclsRequest.overAt v 1 · t0) _)
theorem DeleteAclsRequest.reusable : DeleteAclsRequest.reuse.Holds DeleteAclsRequest.layout where
  decode v t0 d := by
    have h := DeleteAclsRequest.sim v t0 {} d
    have e : DeleteAclsRequest.overAt v 0 {} t0 = t0 := by first | rfl | (simp only [DeleteAclsRequest.overAt, upto_zero, Option.none_or, ite_self] <;> rfl)
    simp only [e] at h
    exact h
  same v y t0 h := (same_or fun hn => h (hn))
  stale v y h := by
    obtain h := h
    · exact ⟨({ Filters := some [{}] } : DeleteAclsRequest), (stale_or h)⟩

/-- What `t0` becomes where a new `DeleteAclsMatchingAcl31` becomes `y`. -/
def DeleteAclsMatchingAcl31.over (version : Int16) (y t0 : DeleteAclsMatchingAcl31) : DeleteAclsMatchingAcl31 :=
  { ErrorCode := y.ErrorCode,
    ErrorMessage := y.ErrorMessage,
    ResourceType := y.ResourceType,
    ResourceName := y.ResourceName,
    PatternType := if version ≥ 1 then y.PatternType else t0.PatternType,
    Principal := y.Principal,
    Host := y.Host,
    Operation := y.Operation,
    PermissionType := y.PermissionType }

/-- An array of structures is nil. -/
def DeleteAclsMatchingAcl31.Nulls (_version : Int16) (_y : DeleteAclsMatchingAcl31) : Prop :=
  False

/-- `DeleteAclsMatchingAcl31` in use again. -/
def DeleteAclsMatchingAcl31.reuse : Reuse DeleteAclsMatchingAcl31.type := { over := DeleteAclsMatchingAcl31.over, Nulls := DeleteAclsMatchingAcl31.Nulls }

/-- The same after the first `k` statements of `Decode`. -/
def DeleteAclsMatchingAcl31.overAt (version : Int16) (k : Nat) (y t0 : DeleteAclsMatchingAcl31) : DeleteAclsMatchingAcl31 :=
  { ErrorCode := upto k 0 (y.ErrorCode) t0.ErrorCode,
    ErrorMessage := upto k 1 (y.ErrorMessage) t0.ErrorMessage,
    ResourceType := upto k 2 (y.ResourceType) t0.ResourceType,
    ResourceName := upto k 3 (y.ResourceName) t0.ResourceName,
    PatternType := upto k 4 (if version ≥ 1 then y.PatternType else t0.PatternType) t0.PatternType,
    Principal := upto k 5 (y.Principal) t0.Principal,
    Host := upto k 6 (y.Host) t0.Host,
    Operation := upto k 7 (y.Operation) t0.Operation,
    PermissionType := upto k 8 (y.PermissionType) t0.PermissionType }

theorem DeleteAclsMatchingAcl31.sim (v : Int16) (t0 : DeleteAclsMatchingAcl31) : Sim (DeleteAclsMatchingAcl31.overAt v 0 · t0) (DeleteAclsMatchingAcl31.overAt v 9 · t0) (DeleteAclsMatchingAcl31.decode v) :=
  ((.field fun _ _ => rfl) : Sim (DeleteAclsMatchingAcl31.overAt v 0 · t0) (DeleteAclsMatchingAcl31.overAt v 1 · t0) _)
    |>.andThen ((.field fun _ _ => rfl) : Sim (DeleteAclsMatchingAcl31.overAt v 1 · t0) (DeleteAclsMatchingAcl31.overAt v 2 · t0) _)
    |>.andThen ((.field fun _ _ => rfl) : Sim (DeleteAclsMatchingAcl31.overAt v 2 · t0) (DeleteAclsMatchingAcl31.overAt v 3 · t0) _)
    |>.andThen ((.field fun _ _ => rfl) : Sim (DeleteAclsMatchingAcl31.overAt v 3 · t0) (DeleteAclsMatchingAcl31.overAt v 4 · t0) _)
    |>.andThen ((.onlyIf (fun hc => .field fun _ _ => by simp only [DeleteAclsMatchingAcl31.overAt, if_pos hc]; rfl) fun hc _ => by simp only [DeleteAclsMatchingAcl31.overAt, if_neg hc]; rfl) : Sim (DeleteAclsMatchingAcl31.overAt v 4 · t0) (DeleteAclsMatchingAcl31.overAt v 5 · t0) _)
    |>.andThen ((.field fun _ _ => rfl) : Sim (DeleteAclsMatchingAcl31.overAt v 5 · t0) (DeleteAclsMatchingAcl31.overAt v 6 · t0) _)
    |>.andThen ((.field fun _ _ => rfl) : Sim (DeleteAclsMatchingAcl31.overAt v 6 · t0) (DeleteAclsMatchingAcl31.overAt v 7 · t0) _)
    |>.andThen ((.field fun _ _ => rfl) : Sim (DeleteAclsMatchingAcl31.overAt v 7 · t0) (DeleteAclsMatchingAcl31.overAt v 8 · t0) _)
    |>.andThen ((.field fun _ _ => rfl) : Sim (DeleteAclsMatchingAcl31.overAt v 8 · t0) (DeleteAclsMatchingAcl31.overAt v 9 · t0) _)
theorem DeleteAclsMatchingAcl31.reusable : DeleteAclsMatchingAcl31.reuse.Holds DeleteAclsMatchingAcl31.layout where
  decode v t0 d := by
    have h := DeleteAclsMatchingAcl31.sim v t0 {} d
    have e : DeleteAclsMatchingAcl31.overAt v 0 {} t0 = t0 := by first | rfl | (simp only [DeleteAclsMatchingAcl31.overAt, upto_zero, Option.none_or, ite_self] <;> rfl)
    simp only [e] at h
    exact h
  same v y t0 _h := (app_congr (app_congr (app_congr (app_congr (app_congr (app_congr (app_congr (app_congr rfl rfl) rfl) rfl) (again_opt Wire.int8 y.PatternType t0.PatternType)) rfl) rfl) rfl) rfl)
  stale _ _ h := h.elim

/-- What `t0` becomes where a new `DeleteAclsFilterResult31` becomes `y`. -/
def DeleteAclsFilterResult31.over (_version : Int16) (y t0 : DeleteAclsFilterResult31) : DeleteAclsFilterResult31 :=
  { ErrorCode := y.ErrorCode,
    ErrorMessage := y.ErrorMessage,
    MatchingAcls := y.MatchingAcls.or t0.MatchingAcls }

/-- An array of structures is nil. -/
def DeleteAclsFilterResult31.Nulls (_version : Int16) (y : DeleteAclsFilterResult31) : Prop :=
  y.MatchingAcls = none

/-- `DeleteAclsFilterResult31` in use again. -/
def DeleteAclsFilterResult31.reuse : Reuse DeleteAclsFilterResult31.type := { over := DeleteAclsFilterResult31.over, Nulls := DeleteAclsFilterResult31.Nulls }

/-- The same after the first `k` statements of `Decode`. -/
def DeleteAclsFilterResult31.overAt (_version : Int16) (k : Nat) (y t0 : DeleteAclsFilterResult31) : DeleteAclsFilterResult31 :=
  { ErrorCode := upto k 0 (y.ErrorCode) t0.ErrorCode,
    ErrorMessage := upto k 1 (y.ErrorMessage) t0.ErrorMessage,
    MatchingAcls := y.MatchingAcls.or t0.MatchingAcls }

theorem DeleteAclsFilterResult31.sim (v : Int16) (t0 : DeleteAclsFilterResult31) : Sim (DeleteAclsFilterResult31.overAt v 0 · t0) (DeleteAclsFilterResult31.overAt v 3 · t0) (DeleteAclsFilterResult31.decode v) :=
  ((.field fun _ _ => rfl) : Sim (DeleteAclsFilterResult31.overAt v 0 · t0) (DeleteAclsFilterResult31.overAt v 1 · t0) _)
    |>.andThen ((.field fun _ _ => rfl) : Sim (DeleteAclsFilterResult31.overAt v 1 · t0) (DeleteAclsFilterResult31.overAt v 2 · t0) _)
    |>.andThen ((.structs (fun _ _ => rfl) fun _ => rfl) : Sim (DeleteAclsFilterResult31.overAt v 2 · t0) (DeleteAclsFilterResult31.overAt v 3 · t0) _)
theorem DeleteAclsFilterResult31.reusable : DeleteAclsFilterResult31.reuse.Holds DeleteAclsFilterResult31.layout where
  decode v t0 d := by
    have h := DeleteAclsFilterResult31.sim v t0 {} d
    have e : DeleteAclsFilterResult31.overAt v 0 {} t0 = t0 := by first | rfl | (simp only [DeleteAclsFilterResult31.overAt, upto_zero, Option.none_or, ite_self] <;> rfl)
    simp only [e] at h
    exact h
  same v y t0 h := (app_congr (app_congr rfl rfl) (same_or fun hn => h (hn)))
  stale v y h := by
    obtain h := h
    · exact ⟨({ MatchingAcls := some [{}] } : DeleteAclsFilterResult31), (app_ne_right (app_congr rfl rfl) (stale_or h))⟩

/-- What `t0` becomes where a new `DeleteAclsResponse` becomes `y`. -/
def DeleteAclsResponse.over (_version : Int16) (y t0 : DeleteAclsResponse) : DeleteAclsResponse :=
  { ThrottleTimeMs := y.ThrottleTimeMs,
    FilterResults := y.FilterResults.or t0.FilterResults }

/-- An array of structures is nil. -/
def DeleteAclsResponse.Nulls (_version : Int16) (y : DeleteAclsResponse) : Prop :=
  y.FilterResults = none

/-- `DeleteAclsResponse` in use again. -/
def DeleteAclsResponse.reuse : Reuse DeleteAclsResponse.type := { over := DeleteAclsResponse.over, Nulls := DeleteAclsResponse.Nulls }

/-- The same after the first `k` statements of `Decode`. -/
def DeleteAclsResponse.overAt (_version : Int16) (k : Nat) (y t0 : DeleteAclsResponse) : DeleteAclsResponse :=
  { ThrottleTimeMs := upto k 0 (y.ThrottleTimeMs) t0.ThrottleTimeMs,
    FilterResults := y.FilterResults.or t0.FilterResults }

theorem DeleteAclsResponse.sim (v : Int16) (t0 : DeleteAclsResponse) : Sim (DeleteAclsResponse.overAt v 0 · t0) (DeleteAclsResponse.overAt v 2 · t0) (DeleteAclsResponse.decode v) :=
  ((.field fun _ _ => rfl) : Sim (DeleteAclsResponse.overAt v 0 · t0) (DeleteAclsResponse.overAt v 1 · t0) _)
    |>.andThen ((.structs (fun _ _ => rfl) fun _ => rfl) : Sim (DeleteAclsResponse.overAt v 1 · t0) (DeleteAclsResponse.overAt v 2 · t0) _)
theorem DeleteAclsResponse.reusable : DeleteAclsResponse.reuse.Holds DeleteAclsResponse.layout where
  decode v t0 d := by
    have h := DeleteAclsResponse.sim v t0 {} d
    have e : DeleteAclsResponse.overAt v 0 {} t0 = t0 := by first | rfl | (simp only [DeleteAclsResponse.overAt, upto_zero, Option.none_or, ite_self] <;> rfl)
    simp only [e] at h
    exact h
  same v y t0 h := (app_congr rfl (same_or fun hn => h (hn)))
  stale v y h := by
    obtain h := h
    · exact ⟨({ FilterResults := some [{}] } : DeleteAclsResponse), (app_ne_right rfl (stale_or h))⟩

/-- The structures of the DeleteAcls messages. -/
def reuseDeleteAcls : List (Σ (M : MsgType) (_ : Layout M), Reuse M) :=
  [⟨DeleteAclsRequest.type, DeleteAclsRequest.layout, DeleteAclsRequest.reuse⟩,
   ⟨DeleteAclsFilter31.type, DeleteAclsFilter31.layout, DeleteAclsFilter31.reuse⟩,
   ⟨DeleteAclsResponse.type, DeleteAclsResponse.layout, DeleteAclsResponse.reuse⟩,
   ⟨DeleteAclsFilterResult31.type, DeleteAclsFilterResult31.layout, DeleteAclsFilterResult31.reuse⟩,
   ⟨DeleteAclsMatchingAcl31.type, DeleteAclsMatchingAcl31.layout, DeleteAclsMatchingAcl31.reuse⟩]
theorem reuseDeleteAcls_holds : ∀ p ∈ reuseDeleteAcls, p.2.2.Holds p.2.1 := by
  unfold reuseDeleteAcls
  simp only [List.forall_mem_cons]
  exact ⟨DeleteAclsRequest.reusable, DeleteAclsFilter31.reusable, DeleteAclsResponse.reusable, DeleteAclsFilterResult31.reusable, DeleteAclsMatchingAcl31.reusable, fun _ h => absurd h (by simp)⟩

end Kafka.Msg
