import Verif.Message.Reuse
import Verif.Gen.Spec.DescribeConfigs
/-!
Generated by tools/gen_messages.py: decoding into DescribeConfigs messages used before.
-/
set_option linter.unusedSimpArgs false
set_option linter.unusedVariables false
namespace Kafka.Msg

/-- What `t0` becomes where a new `DescribeConfigsResource32` becomes `y`. -/
def DescribeConfigsResource32.over (_version : Int16) (y _t0 : DescribeConfigsResource32) : DescribeConfigsResource32 :=
  { ResourceType := y.ResourceType,
    ResourceName := y.ResourceName,
    ConfigurationKeys := y.ConfigurationKeys }

/-- An array of structures is nil. -/
def DescribeConfigsResource32.Nulls (_version : Int16) (_y : DescribeConfigsResource32) : Prop :=
  False

/-- `DescribeConfigsResource32` in use again. -/
def DescribeConfigsResource32.reuse : Reuse DescribeConfigsResource32.type := { over := DescribeConfigsResource32.over, Nulls := DescribeConfigsResource32.Nulls }

/-- The same after the first `k` statements of `Decode`. -/
def DescribeConfigsResource32.overAt (_version : Int16) (k : Nat) (y t0 : DescribeConfigsResource32) : DescribeConfigsResource32 :=
  { ResourceType := upto k 0 (y.ResourceType) t0.ResourceType,
    ResourceName := upto k 1 (y.ResourceName) t0.ResourceName,
    ConfigurationKeys := upto k 2 (y.ConfigurationKeys) t0.ConfigurationKeys }

theorem DescribeConfigsResource32.sim (v : Int16) (t0 : DescribeConfigsResource32) : Sim (DescribeConfigsResource32.overAt v 0 · t0) (DescribeConfigsResource32.overAt v 3 · t0) (DescribeConfigsResource32.decode v) :=
  ((.field fun _ _ => rfl) : Sim (DescribeConfigsResource32.overAt v 0 · t0) (DescribeConfigsResource32.overAt v 1 · t0) _)
    |>.andThen ((.field fun _ _ => rfl) : Sim (DescribeConfigsResource32.overAt v 1 · t0) (DescribeConfigsResource32.overAt v 2 · t0) _)
    |>.andThen ((.field fun _ _ => rfl) : Sim (DescribeConfigsResource32.overAt v 2 · t0) (DescribeConfigsResource32.overAt v 3 · t0) _)
theorem DescribeConfigsResource32.reusable : DescribeConfigsResource32.reuse.Holds DescribeConfigsResource32.layout where
  decode v t0 d := by
    have h := DescribeConfigsResource32.sim v t0 {} d
    have e : DescribeConfigsResource32.overAt v 0 {} t0 = t0 := by first | rfl | (simp only [DescribeConfigsResource32.overAt, upto_zero, Option.none_or, ite_self] <;> rfl)
    simp only [e] at h
    exact h
  same v y t0 _h := (app_congr (app_congr rfl rfl) rfl)
  stale _ _ h := h.elim

/-- What `t0` becomes where a new `DescribeConfigsRequest` becomes `y`. -/
def DescribeConfigsRequest.over (version : Int16) (y t0 : DescribeConfigsRequest) : DescribeConfigsRequest :=
  { Resources := y.Resources.or t0.Resources,
    IncludeSynoyms := if version ≥ 1 then y.IncludeSynoyms else t0.IncludeSynoyms }

/-- An array of structures is nil. -/
def DescribeConfigsRequest.Nulls (_version : Int16) (y : DescribeConfigsRequest) : Prop :=
  y.Resources = none

/-- `DescribeConfigsRequest` in use again. -/
def DescribeConfigsRequest.reuse : Reuse DescribeConfigsRequest.type := { over := DescribeConfigsRequest.over, Nulls := DescribeConfigsRequest.Nulls }

/-- The same after the first `k` statements of `Decode`. -/
def DescribeConfigsRequest.overAt (version : Int16) (k : Nat) (y t0 : DescribeConfigsRequest) : DescribeConfigsRequest :=
  { Resources := y.Resources.or t0.Resources,
    IncludeSynoyms := upto k 1 (if version ≥ 1 then y.IncludeSynoyms else t0.IncludeSynoyms) t0.IncludeSynoyms }

theorem DescribeConfigsRequest.sim (v : Int16) (t0 : DescribeConfigsRequest) : Sim (DescribeConfigsRequest.overAt v 0 · t0) (DescribeConfigsRequest.overAt v 2 · t0) (DescribeConfigsRequest.decode v) :=
  ((.structs (fun _ _ => rfl) fun _ => rfl) : Sim (DescribeConfigsRequest.overAt v 0 · t0) (DescribeConfigsRequest.overAt v 1 · t0) _)
    |>.andThen ((.onlyIf (fun hc => .field fun _ _ => by simp only [DescribeConfigsRequest.overAt, if_pos hc]; rfl) fun hc _ => by simp only [DescribeConfigsRequest.overAt, if_neg hc]; rfl) : Sim (DescribeConfigsRequest.overAt v 1 · t0) (DescribeConfigsRequest.overAt v 2 · t0) _)
theorem DescribeConfigsRequest.reusable : DescribeConfigsRequest.reuse.Holds DescribeConfigsRequest.layout where
  decode v t0 d := by
    have h := DescribeConfigsRequest.sim v t0 {} d
    have e : DescribeConfigsRequest.overAt v 0 {} t0 = t0 := by first | rfl | (simp only [DescribeConfigsRequest.overAt, upto_zero, Option.none_or, ite_self] <;> rfl)
    simp only [e] at h
    exact h
  same v y t0 h := (app_congr (same_or fun hn => h (hn)) (again_opt Wire.bool y.IncludeSynoyms t0.IncludeSynoyms))
  stale v y h := by
    obtain h := h
    · exact ⟨({ Resources := some [{}] } : DescribeConfigsRequest), (app_ne_left (stale_or h) (again_opt Wire.bool y.IncludeSynoyms false))⟩

/-- What `t0` becomes where a new `DescribeConfigsSynonym32` becomes `y`. -/
def DescribeConfigsSynonym32.over (version : Int16) (y t0 : DescribeConfigsSynonym32) : DescribeConfigsSynonym32 :=
  { Name := if version ≥ 1 then y.Name else t0.Name,
    Value := if version ≥ 1 then y.Value else t0.Value,
    Source := if version ≥ 1 then y.Source else t0.Source }

/-- An array of structures is nil. -/
def DescribeConfigsSynonym32.Nulls (_version : Int16) (_y : DescribeConfigsSynonym32) : Prop :=
  False

/-- `DescribeConfigsSynonym32` in use again. -/
def DescribeConfigsSynonym32.reuse : Reuse DescribeConfigsSynonym32.type := { over := DescribeConfigsSynonym32.over, Nulls := DescribeConfigsSynonym32.Nulls }

/-- The same after the first `k` statements of `Decode`. -/
def DescribeConfigsSynonym32.overAt (version : Int16) (k : Nat) (y t0 : DescribeConfigsSynonym32) : DescribeConfigsSynonym32 :=
  { Name := upto k 0 (if version ≥ 1 then y.Name else t0.Name) t0.Name,
    Value := upto k 1 (if version ≥ 1 then y.Value else t0.Value) t0.Value,
    Source := upto k 2 (if version ≥ 1 then y.Source else t0.Source) t0.Source }

theorem DescribeConfigsSynonym32.sim (v : Int16) (t0 : DescribeConfigsSynonym32) : Sim (DescribeConfigsSynonym32.overAt v 0 · t0) (DescribeConfigsSynonym32.overAt v 3 · t0) (DescribeConfigsSynonym32.decode v) :=
  ((.onlyIf (fun hc => .field fun _ _ => by simp only [DescribeConfigsSynonym32.overAt, if_pos hc]; rfl) fun hc _ => by simp only [DescribeConfigsSynonym32.overAt, if_neg hc]; rfl) : Sim (DescribeConfigsSynonym32.overAt v 0 · t0) (DescribeConfigsSynonym32.overAt v 1 · t0) _)
    |>.andThen ((.onlyIf (fun hc => .field fun _ _ => by simp only [DescribeConfigsSynonym32.overAt, if_pos hc]; rfl) fun hc _ => by simp only [DescribeConfigsSynonym32.overAt, if_neg hc]; rfl) : Sim (DescribeConfigsSynonym32.overAt v 1 · t0) (DescribeConfigsSynonym32.overAt v 2 · t0) _)
    |>.andThen ((.onlyIf (fun hc => .field fun _ _ => by simp only [DescribeConfigsSynonym32.overAt, if_pos hc]; rfl) fun hc _ => by simp only [DescribeConfigsSynonym32.overAt, if_neg hc]; rfl) : Sim (DescribeConfigsSynonym32.overAt v 2 · t0) (DescribeConfigsSynonym32.overAt v 3 · t0) _)
theorem DescribeConfigsSynonym32.reusable : DescribeConfigsSynonym32.reuse.Holds DescribeConfigsSynonym32.layout where
  decode v t0 d := by
    have h := DescribeConfigsSynonym32.sim v t0 {} d
    have e : DescribeConfigsSynonym32.overAt v 0 {} t0 = t0 := by first | rfl | (simp only [DescribeConfigsSynonym32.overAt, upto_zero, Option.none_or, ite_self] <;> rfl)
    simp only [e] at h
    exact h
  same v y t0 _h := (app_congr (app_congr (again_opt Wire.string y.Name t0.Name) (again_opt Wire.string y.Value t0.Value)) (again_opt Wire.int8 y.Source t0.Source))
  stale _ _ h := h.elim

/-- What `t0` becomes where a new `DescribeConfigsResourceResult32` becomes `y`. -/
def DescribeConfigsResourceResult32.over (version : Int16) (y t0 : DescribeConfigsResourceResult32) : DescribeConfigsResourceResult32 :=
  { Name := y.Name,
    Value := y.Value,
    ReadOnly := y.ReadOnly,
    IsDefault := if version ≥ 0 ∧ version ≤ 0 then y.IsDefault else t0.IsDefault,
    ConfigSource := if version ≥ 1 then y.ConfigSource else t0.ConfigSource,
    IsSensitive := y.IsSensitive,
    Synonyms := if version ≥ 1 then y.Synonyms.or t0.Synonyms else t0.Synonyms }

/-- An array of structures is nil. -/
def DescribeConfigsResourceResult32.Nulls (version : Int16) (y : DescribeConfigsResourceResult32) : Prop :=
  (version ≥ 1) ∧ y.Synonyms = none

/-- `DescribeConfigsResourceResult32` in use again. -/
def DescribeConfigsResourceResult32.reuse : Reuse DescribeConfigsResourceResult32.type := { over := DescribeConfigsResourceResult32.over, Nulls := DescribeConfigsResourceResult32.Nulls }

/-- The same after the first `k` statements of `Decode`. -/
def DescribeConfigsResourceResult32.overAt (version : Int16) (k : Nat) (y t0 : DescribeConfigsResourceResult32) : DescribeConfigsResourceResult32 :=
  { Name := upto k 0 (y.Name) t0.Name,
    Value := upto k 1 (y.Value) t0.Value,
    ReadOnly := upto k 2 (y.ReadOnly) t0.ReadOnly,
    IsDefault := upto k 3 (if version ≥ 0 ∧ version ≤ 0 then y.IsDefault else t0.IsDefault) t0.IsDefault,
    ConfigSource := upto k 4 (if version ≥ 1 then y.ConfigSource else t0.ConfigSource) t0.ConfigSource,
    IsSensitive := upto k 5 (y.IsSensitive) t0.IsSensitive,
    Synonyms := if version ≥ 1 then y.Synonyms.or t0.Synonyms else t0.Synonyms }

theorem DescribeConfigsResourceResult32.sim (v : Int16) (t0 : DescribeConfigsResourceResult32) : Sim (DescribeConfigsResourceResult32.overAt v 0 · t0) (DescribeConfigsResourceResult32.overAt v 7 · t0) (DescribeConfigsResourceResult32.decode v) :=
  ((.field fun _ _ => rfl) : Sim (DescribeConfigsResourceResult32.overAt v 0 · t0) (DescribeConfigsResourceResult32.overAt v 1 · t0) _)
    |>.andThen ((.field fun _ _ => rfl) : Sim (DescribeConfigsResourceResult32.overAt v 1 · t0) (DescribeConfigsResourceResult32.overAt v 2 · t0) _)
    |>.andThen ((.field fun _ _ => rfl) : Sim (DescribeConfigsResourceResult32.overAt v 2 · t0) (DescribeConfigsResourceResult32.overAt v 3 · t0) _)
    |>.andThen ((.onlyIf (fun hc => .field fun _ _ => by simp only [DescribeConfigsResourceResult32.overAt, if_pos hc]; rfl) fun hc _ => by simp only [DescribeConfigsResourceResult32.overAt, if_neg hc]; rfl) : Sim (DescribeConfigsResourceResult32.overAt v 3 · t0) (DescribeConfigsResourceResult32.overAt v 4 · t0) _)
    |>.andThen ((.onlyIf (fun hc => .field fun _ _ => by simp only [DescribeConfigsResourceResult32.overAt, if_pos hc]; rfl) fun hc _ => by simp only [DescribeConfigsResourceResult32.overAt, if_neg hc]; rfl) : Sim (DescribeConfigsResourceResult32.overAt v 4 · t0) (DescribeConfigsResourceResult32.overAt v 5 · t0) _)
    |>.andThen ((.field fun _ _ => rfl) : Sim (DescribeConfigsResourceResult32.overAt v 5 · t0) (DescribeConfigsResourceResult32.overAt v 6 · t0) _)
    |>.andThen ((.onlyIf (fun hc => .structs (fun _ _ => by simp only [DescribeConfigsResourceResult32.overAt, if_pos hc]; rfl) fun _ => by simp only [DescribeConfigsResourceResult32.overAt, if_pos hc]; rfl) fun hc _ => by simp only [DescribeConfigsResourceResult32.overAt, if_neg hc]; rfl) : Sim (DescribeConfigsResourceResult32.overAt v 6 · t0) (DescribeConfigsResourceResult32.overAt v 7 · t0) _)
theorem DescribeConfigsResourceResult32.reusable : DescribeConfigsResourceResult32.reuse.Holds DescribeConfigsResourceResult32.layout where
  decode v t0 d := by
    have h := DescribeConfigsResourceResult32.sim v t0 {} d
    have e : DescribeConfigsResourceResult32.overAt v 0 {} t0 = t0 := by first | rfl | (simp only [DescribeConfigsResourceResult32.overAt, upto_zero, Option.none_or, ite_self] <;> rfl)
    simp only [e] at h
    exact h
  same v y t0 h := (app_congr (app_congr (app_congr (app_congr (app_congr (app_congr rfl rfl) rfl) (again_opt Wire.bool y.IsDefault t0.IsDefault)) (again_opt Wire.int8 y.ConfigSource t0.ConfigSource)) rfl) (same_when fun hc hn => h (⟨hc, hn⟩)))
  stale v y h := by
    obtain ⟨hc, h⟩ := h
    · exact ⟨({ Synonyms := some [{}] } : DescribeConfigsResourceResult32), (app_ne_right (app_congr (app_congr (app_congr (app_congr (app_congr rfl rfl) rfl) (again_opt Wire.bool y.IsDefault false)) (again_opt Wire.int8 y.ConfigSource 0)) rfl) (stale_when hc h))⟩

/-- What `t0` becomes where a new `DescribeConfigsResult32` becomes `y`. -/
def DescribeConfigsResult32.over (_version : Int16) (y t0 : DescribeConfigsResult32) : DescribeConfigsResult32 :=
  { ErrorCode := y.ErrorCode,
    ErrorMessage := y.ErrorMessage,
    ResourceType := y.ResourceType,
    ResourceName := y.ResourceName,
    Configs := y.Configs.or t0.Configs }

/-- An array of structures is nil. -/
def DescribeConfigsResult32.Nulls (_version : Int16) (y : DescribeConfigsResult32) : Prop :=
  y.Configs = none

/-- `DescribeConfigsResult32` in use again. -/
def DescribeConfigsResult32.reuse : Reuse DescribeConfigsResult32.type := { over := DescribeConfigsResult32.over, Nulls := DescribeConfigsResult32.Nulls }

/-- The same after the first `k` statements of `Decode`. -/
def DescribeConfigsResult32.overAt (_version : Int16) (k : Nat) (y t0 : DescribeConfigsResult32) : DescribeConfigsResult32 :=
  { ErrorCode := upto k 0 (y.ErrorCode) t0.ErrorCode,
    ErrorMessage := upto k 1 (y.ErrorMessage) t0.ErrorMessage,
    ResourceType := upto k 2 (y.ResourceType) t0.ResourceType,
    ResourceName := upto k 3 (y.ResourceName) t0.ResourceName,
    Configs := y.Configs.or t0.Configs }

theorem DescribeConfigsResult32.sim (v : Int16) (t0 : DescribeConfigsResult32) : Sim (DescribeConfigsResult32.overAt v 0 · t0) (DescribeConfigsResult32.overAt v 5 · t0) (DescribeConfigsResult32.decode v) :=
  ((.field fun _ _ => rfl) : Sim (DescribeConfigsResult32.overAt v 0 · t0) (DescribeConfigsResult32.overAt v 1 · t0) _)
    |>.andThen ((.field fun _ _ => rfl) : Sim (DescribeConfigsResult32.overAt v 1 · t0) (DescribeConfigsResult32.overAt v 2 · t0) _)
    |>.andThen ((.field fun _ _ => rfl) : Sim (DescribeConfigsResult32.overAt v 2 · t0) (DescribeConfigsResult32.overAt v 3 · t0) _)
    |>.andThen ((.field fun _ _ => rfl) : Sim (DescribeConfigsResult32.overAt v 3 · t0) (DescribeConfigsResult32.overAt v 4 · t0) _)
    |>.andThen ((.structs (fun _ _ => rfl) fun _ => rfl) : Sim (DescribeConfigsResult32.overAt v 4 · t0) (DescribeConfigsResult32.overAt v 5 · t0) _)
theorem DescribeConfigsResult32.reusable : DescribeConfigsResult32.reuse.Holds DescribeConfigsResult32.layout where
  decode v t0 d := by
    have h := DescribeConfigsResult32.sim v t0 {} d
    have e : DescribeConfigsResult32.overAt v 0 {} t0 = t0 := by first | rfl | (simp only [DescribeConfigsResult32.overAt, upto_zero, Option.none_or, ite_self] <;> rfl)
    simp only [e] at h
    exact h
  same v y t0 h := (app_congr (app_congr (app_congr (app_congr rfl rfl) rfl) rfl) (same_or fun hn => h (hn)))
  stale v y h := by
    obtain h := h
    · exact ⟨({ Configs := some [{}] } : DescribeConfigsResult32), (app_ne_right (app_congr (app_congr (app_congr rfl rfl) rfl) rfl) (stale_or h))⟩

/-- What `t0` becomes where a new `DescribeConfigsResponse` becomes `y`. -/
def DescribeConfigsResponse.over (_version : Int16) (y t0 : DescribeConfigsResponse) : DescribeConfigsResponse :=
  { ThrottleTimeMs := y.ThrottleTimeMs,
    Results := y.Results.or t0.Results }

/-- An array of structures is nil. -/
def DescribeConfigsResponse.Nulls (_version : Int16) (y : DescribeConfigsResponse) : Prop :=
  y.Results = none

/-- `DescribeConfigsResponse` in use again. -/
def DescribeConfigsResponse.reuse : Reuse DescribeConfigsResponse.type := { over := DescribeConfigsResponse.over, Nulls := DescribeConfigsResponse.Nulls }

/-- The same after the first `k` statements of `Decode`. -/
def DescribeConfigsResponse.overAt (_version : Int16) (k : Nat) (y t0 : DescribeConfigsResponse) : DescribeConfigsResponse :=
  { ThrottleTimeMs := upto k 0 (y.ThrottleTimeMs) t0.ThrottleTimeMs,
    Results := y.Results.or t0.Results }

theorem DescribeConfigsResponse.sim (v : Int16) (t0 : DescribeConfigsResponse) : Sim (DescribeConfigsResponse.overAt v 0 · t0) (DescribeConfigsResponse.overAt v 2 · t0) (DescribeConfigsResponse.decode v) :=
  ((.field fun _ _ => rfl) : Sim (DescribeConfigsResponse.overAt v 0 · t0) (DescribeConfigsResponse.overAt v 1 · t0) _)
    |>.andThen ((.structs (fun _ _ => rfl) fun _ => rfl) : Sim (DescribeConfigsResponse.overAt v 1 · t0) (DescribeConfigsResponse.overAt v 2 · t0) _)
theorem DescribeConfigsResponse.reusable : DescribeConfigsResponse.reuse.Holds DescribeConfigsResponse.layout where
  decode v t0 d := by
    have h := DescribeConfigsResponse.sim v t0 {} d
    have e : DescribeConfigsResponse.overAt v 0 {} t0 = t0 := by first | rfl | (simp only [DescribeConfigsResponse.overAt, upto_zero, Option.none_or, ite_self] <;> rfl)
    simp only [e] at h
    exact h
  same v y t0 h := (app_congr rfl (same_or fun hn => h (hn)))
  stale v y h := by
    obtain h := h
    · exact ⟨({ Results := some [{}] } : DescribeConfigsResponse), (app_ne_right rfl (stale_or h))⟩

/-- The structures of the DescribeConfigs messages. -/
def reuseDescribeConfigs : List (Σ (M : MsgType) (_ : Layout M), Reuse M) :=
  [⟨DescribeConfigsRequest.type, DescribeConfigsRequest.layout, DescribeConfigsRequest.reuse⟩,
   ⟨DescribeConfigsResource32.type, DescribeConfigsResource32.layout, DescribeConfigsResource32.reuse⟩,
   ⟨DescribeConfigsResponse.type, DescribeConfigsResponse.layout, DescribeConfigsResponse.reuse⟩,
   ⟨DescribeConfigsResult32.type, DescribeConfigsResult32.layout, DescribeConfigsResult32.reuse⟩,
   ⟨DescribeConfigsResourceResult32.type, DescribeConfigsResourceResult32.layout, DescribeConfigsResourceResult32.reuse⟩,
   ⟨DescribeConfigsSynonym32.type, DescribeConfigsSynonym32.layout, DescribeConfigsSynonym32.reuse⟩]
theorem reuseDescribeConfigs_holds : ∀ p ∈ reuseDescribeConfigs, p.2.2.Holds p.2.1 := by
  unfold reuseDescribeConfigs
  simp only [List.forall_mem_cons]
  exact ⟨DescribeConfigsRequest.reusable, DescribeConfigsResource32.reusable, DescribeConfigsResponse.reusable, DescribeConfigsResult32.reusable, DescribeConfigsResourceResult32.reusable, DescribeConfigsSynonym32.reusable, fun _ h => absurd h (by simp)⟩

end Kafka.Msg
