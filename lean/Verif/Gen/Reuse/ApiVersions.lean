import Verif.Message.Reuse
import Verif.Gen.Spec.ApiVersions
/-!
Generated by tools/gen_messages.py: decoding into ApiVersions messages used before.
-/
set_option linter.unusedSimpArgs false
set_option linter.unusedVariables false
namespace Kafka.Msg

/-- What `t0` becomes where a new `ApiVersionsRequest` becomes `y`. -/
def ApiVersionsRequest.over (version : Int16) (y t0 : ApiVersionsRequest) : ApiVersionsRequest :=
  { ClientSoftwareName := if version ≥ 3 then y.ClientSoftwareName else t0.ClientSoftwareName,
    ClientSoftwareVersion := if version ≥ 3 then y.ClientSoftwareVersion else t0.ClientSoftwareVersion }

/-- An array of structures is nil. -/
def ApiVersionsRequest.Nulls (_version : Int16) (_y : ApiVersionsRequest) : Prop :=
  False

/-- `ApiVersionsRequest` in use again. -/
def ApiVersionsRequest.reuse : Reuse ApiVersionsRequest.type := { over := ApiVersionsRequest.over, Nulls := ApiVersionsRequest.Nulls }

/-- The same after the first `k` statements of `Decode`. -/
def ApiVersionsRequest.overAt (version : Int16) (k : Nat) (y t0 : ApiVersionsRequest) : ApiVersionsRequest :=
  { ClientSoftwareName := upto k 0 (if version ≥ 3 then y.ClientSoftwareName else t0.ClientSoftwareName) t0.ClientSoftwareName,
    ClientSoftwareVersion := upto k 1 (if version ≥ 3 then y.ClientSoftwareVersion else t0.ClientSoftwareVersion) t0.ClientSoftwareVersion }

theorem ApiVersionsRequest.sim (v : Int16) (t0 : ApiVersionsRequest) : Sim (ApiVersionsRequest.overAt v 0 · t0) (ApiVersionsRequest.overAt v 2 · t0) (ApiVersionsRequest.decode v) :=
  ((.onlyIf (fun hc => .field fun _ _ => by simp only [ApiVersionsRequest.overAt, if_pos hc]; rfl) fun hc _ => by simp only [ApiVersionsRequest.overAt, if_neg hc]; rfl) : Sim (ApiVersionsRequest.overAt v 0 · t0) (ApiVersionsRequest.overAt v 1 · t0) _)
    |>.andThen ((.onlyIf (fun hc => .field fun _ _ => by simp only [ApiVersionsRequest.overAt, if_pos hc]; rfl) fun hc _ => by simp only [ApiVersionsRequest.overAt, if_neg hc]; rfl) : Sim (ApiVersionsRequest.overAt v 1 · t0) (ApiVersionsRequest.overAt v 2 · t0) _)
theorem ApiVersionsRequest.reusable : ApiVersionsRequest.reuse.Holds ApiVersionsRequest.layout where
  decode v t0 d := by
    have h := ApiVersionsRequest.sim v t0 {} d
    have e : ApiVersionsRequest.overAt v 0 {} t0 = t0 := by first | rfl | (simp only [ApiVersionsRequest.overAt, upto_zero, Option.none_or, ite_self] <;> rfl)
    simp only [e] at h
    exact h
  same v y t0 _h := (app_congr (again_opt Wire.string y.ClientSoftwareName t0.ClientSoftwareName) (again_opt Wire.string y.ClientSoftwareVersion t0.ClientSoftwareVersion))
  stale _ _ h := h.elim

/-- What `t0` becomes where a new `ApiVersionsResponseKey18` becomes `y`. -/
def ApiVersionsResponseKey18.over (_version : Int16) (y _t0 : ApiVersionsResponseKey18) : ApiVersionsResponseKey18 :=
  { ApiKey := y.ApiKey,
    MinVersion := y.MinVersion,
    MaxVersion := y.MaxVersion }

/-- An array of structures is nil. -/
def ApiVersionsResponseKey18.Nulls (_version : Int16) (_y : ApiVersionsResponseKey18) : Prop :=
  False

/-- `ApiVersionsResponseKey18` in use again. -/
def ApiVersionsResponseKey18.reuse : Reuse ApiVersionsResponseKey18.type := { over := ApiVersionsResponseKey18.over, Nulls := ApiVersionsResponseKey18.Nulls }

/-- The same after the first `k` statements of `Decode`. -/
def ApiVersionsResponseKey18.overAt (_version : Int16) (k : Nat) (y t0 : ApiVersionsResponseKey18) : ApiVersionsResponseKey18 :=
  { ApiKey := upto k 0 (y.ApiKey) t0.ApiKey,
    MinVersion := upto k 1 (y.MinVersion) t0.MinVersion,
    MaxVersion := upto k 2 (y.MaxVersion) t0.MaxVersion }

theorem ApiVersionsResponseKey18.sim (v : Int16) (t0 : ApiVersionsResponseKey18) : Sim (ApiVersionsResponseKey18.overAt v 0 · t0) (ApiVersionsResponseKey18.overAt v 3 · t0) (ApiVersionsResponseKey18.decode v) :=
  ((.field fun _ _ => rfl) : Sim (ApiVersionsResponseKey18.overAt v 0 · t0) (ApiVersionsResponseKey18.overAt v 1 · t0) _)
    |>.andThen ((.field fun _ _ => rfl) : Sim (ApiVersionsResponseKey18.overAt v 1 · t0) (ApiVersionsResponseKey18.overAt v 2 · t0) _)
    |>.andThen ((.field fun _ _ => rfl) : Sim (ApiVersionsResponseKey18.overAt v 2 · t0) (ApiVersionsResponseKey18.overAt v 3 · t0) _)
theorem ApiVersionsResponseKey18.reusable : ApiVersionsResponseKey18.reuse.Holds ApiVersionsResponseKey18.layout where
  decode v t0 d := by
    have h := ApiVersionsResponseKey18.sim v t0 {} d
    have e : ApiVersionsResponseKey18.overAt v 0 {} t0 = t0 := by first | rfl | (simp only [ApiVersionsResponseKey18.overAt, upto_zero, Option.none_or, ite_self] <;> rfl)
    simp only [e] at h
    exact h
  same v y t0 _h := (app_congr (app_congr rfl rfl) rfl)
  stale _ _ h := h.elim

/-- What `t0` becomes where a new `ApiVersionsResponse` becomes `y`. -/
def ApiVersionsResponse.over (version : Int16) (y t0 : ApiVersionsResponse) : ApiVersionsResponse :=
  { ErrorCode := y.ErrorCode,
    ApiKeys := y.ApiKeys.or t0.ApiKeys,
    ThrottleTimeMs := if version ≥ 1 then y.ThrottleTimeMs else t0.ThrottleTimeMs }

/-- An array of structures is nil. -/
def ApiVersionsResponse.Nulls (_version : Int16) (y : ApiVersionsResponse) : Prop :=
  y.ApiKeys = none

/-- `ApiVersionsResponse` in use again. -/
def ApiVersionsResponse.reuse : Reuse ApiVersionsResponse.type := { over := ApiVersionsResponse.over, Nulls := ApiVersionsResponse.Nulls }

/-- The same after the first `k` statements of `Decode`. -/
def ApiVersionsResponse.overAt (version : Int16) (k : Nat) (y t0 : ApiVersionsResponse) : ApiVersionsResponse :=
  { ErrorCode := upto k 0 (y.ErrorCode) t0.ErrorCode,
    ApiKeys := y.ApiKeys.or t0.ApiKeys,
    ThrottleTimeMs := upto k 2 (if version ≥ 1 then y.ThrottleTimeMs else t0.ThrottleTimeMs) t0.ThrottleTimeMs }

theorem ApiVersionsResponse.sim (v : Int16) (t0 : ApiVersionsResponse) : Sim (ApiVersionsResponse.overAt v 0 · t0) (ApiVersionsResponse.overAt v 3 · t0) (ApiVersionsResponse.decode v) :=
  ((.field fun _ _ => rfl) : Sim (ApiVersionsResponse.overAt v 0 · t0) (ApiVersionsResponse.overAt v 1 · t0) _)
    |>.andThen ((.structs (fun _ _ => rfl) fun _ => rfl) : Sim (ApiVersionsResponse.overAt v 1 · t0) (ApiVersionsResponse.overAt v 2 · t0) _)
    |>.andThen ((.onlyIf (fun hc => .field fun _ _ => by simp only [ApiVersionsResponse.overAt, if_pos hc]; rfl) fun hc _ => by simp only [ApiVersionsResponse.overAt, if_neg hc]; rfl) : Sim (ApiVersionsResponse.overAt v 2 · t0) (ApiVersionsResponse.overAt v 3 · t0) _)
theorem ApiVersionsResponse.reusable : ApiVersionsResponse.reuse.Holds ApiVersionsResponse.layout where
  decode v t0 d := by
    have h := ApiVersionsResponse.sim v t0 {} d
    have e : ApiVersionsResponse.overAt v 0 {} t0 = t0 := by first | rfl | (simp only [ApiVersionsResponse.overAt, upto_zero, Option.none_or, ite_self] <;> rfl)
    simp only [e] at h
    exact h
  same v y t0 h := (app_congr (app_congr rfl (same_or fun hn => h (hn))) (again_opt Wire.int32 y.ThrottleTimeMs t0.ThrottleTimeMs))
  stale v y h := by
    obtain h := h
    · exact ⟨({ ApiKeys := some [{}] } : ApiVersionsResponse), (app_ne_left (app_ne_right rfl (stale_or h)) (again_opt Wire.int32 y.ThrottleTimeMs 0))⟩

/-- The structures of the ApiVersions messages. -/
def reuseApiVersions : List (Σ (M : MsgType) (_ : Layout M), Reuse M) :=
  [⟨ApiVersionsRequest.type, ApiVersionsRequest.layout, ApiVersionsRequest.reuse⟩,
   ⟨ApiVersionsResponse.type, ApiVersionsResponse.layout, ApiVersionsResponse.reuse⟩,
   ⟨ApiVersionsResponseKey18.type, ApiVersionsResponseKey18.layout, ApiVersionsResponseKey18.reuse⟩]
theorem reuseApiVersions_holds : ∀ p ∈ reuseApiVersions, p.2.2.Holds p.2.1 := by
  unfold reuseApiVersions
  simp only [List.forall_mem_cons]
  exact ⟨ApiVersionsRequest.reusable, ApiVersionsResponse.reusable, ApiVersionsResponseKey18.reusable, fun _ h => absurd h (by simp)⟩

end Kafka.Msg
