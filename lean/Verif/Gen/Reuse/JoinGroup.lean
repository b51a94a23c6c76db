import Verif.Message.Reuse
import Verif.Gen.Spec.JoinGroup
/-!
Generated by tools/gen_messages.py: decoding into JoinGroup messages used before.
-/
set_option linter.unusedSimpArgs false
set_option linter.unusedVariables false
namespace Kafka.Msg

/-- What `t0` becomes where a new `JoinGroupRequestProtocol11` becomes `y`. -/
def JoinGroupRequestProtocol11.over (_version : Int16) (y _t0 : JoinGroupRequestProtocol11) : JoinGroupRequestProtocol11 :=
  { Name := y.Name,
    Metadata := y.Metadata }

/-- An array of structures is nil. -/
def JoinGroupRequestProtocol11.Nulls (_version : Int16) (_y : JoinGroupRequestProtocol11) : Prop :=
  False

/-- `JoinGroupRequestProtocol11` in use again. -/
def JoinGroupRequestProtocol11.reuse : Reuse JoinGroupRequestProtocol11.type := { over := JoinGroupRequestProtocol11.over, Nulls := JoinGroupRequestProtocol11.Nulls }

/-- The same after the first `k` statements of `Decode`. -/
def JoinGroupRequestProtocol11.overAt (_version : Int16) (k : Nat) (y t0 : JoinGroupRequestProtocol11) : JoinGroupRequestProtocol11 :=
  { Name := upto k 0 (y.Name) t0.Name,
    Metadata := upto k 1 (y.Metadata) t0.Metadata }

theorem JoinGroupRequestProtocol11.sim (v : Int16) (t0 : JoinGroupRequestProtocol11) : Sim (JoinGroupRequestProtocol11.overAt v 0 · t0) (JoinGroupRequestProtocol11.overAt v 2 · t0) (JoinGroupRequestProtocol11.decode v) :=
  ((.field fun _ _ => rfl) : Sim (JoinGroupRequestProtocol11.overAt v 0 · t0) (JoinGroupRequestProtocol11.overAt v 1 · t0) _)
    |>.andThen ((.field fun _ _ => rfl) : Sim (JoinGroupRequestProtocol11.overAt v 1 · t0) (JoinGroupRequestProtocol11.overAt v 2 · t0) _)
theorem JoinGroupRequestProtocol11.reusable : JoinGroupRequestProtocol11.reuse.Holds JoinGroupRequestProtocol11.layout where
  decode v t0 d := by
    have h := JoinGroupRequestProtocol11.sim v t0 {} d
    have e : JoinGroupRequestProtocol11.overAt v 0 {} t0 = t0 := by first | rfl | (simp only [JoinGroupRequestProtocol11.overAt, upto_zero, Option.none_or, ite_self] <;> rfl)
    simp only [e] at h
    exact h
  same v y t0 _h := (app_congr rfl rfl)
  stale _ _ h := h.elim

/-- What `t0` becomes where a new `JoinGroupRequest` becomes `y`. -/
def JoinGroupRequest.over (version : Int16) (y t0 : JoinGroupRequest) : JoinGroupRequest :=
  { GroupId := y.GroupId,
    SessionTimeoutMs := y.SessionTimeoutMs,
    RebalanceTimeoutMs := if version ≥ 1 then y.RebalanceTimeoutMs else t0.RebalanceTimeoutMs,
    MemberId := y.MemberId,
    GroupInstanceId := if version ≥ 5 then y.GroupInstanceId else t0.GroupInstanceId,
    ProtocolType := y.ProtocolType,
    Protocols := y.Protocols.or t0.Protocols }

/-- An array of structures is nil. -/
def JoinGroupRequest.Nulls (_version : Int16) (y : JoinGroupRequest) : Prop :=
  y.Protocols = none

/-- `JoinGroupRequest` in use again. -/
def JoinGroupRequest.reuse : Reuse JoinGroupRequest.type := { over := JoinGroupRequest.over, Nulls := JoinGroupRequest.Nulls }

/-- The same after the first `k` statements of `Decode`. -/
def JoinGroupRequest.overAt (version : Int16) (k : Nat) (y t0 : JoinGroupRequest) : JoinGroupRequest :=
  { GroupId := upto k 0 (y.GroupId) t0.GroupId,
    SessionTimeoutMs := upto k 1 (y.SessionTimeoutMs) t0.SessionTimeoutMs,
    RebalanceTimeoutMs := upto k 2 (if version ≥ 1 then y.RebalanceTimeoutMs else t0.RebalanceTimeoutMs) t0.RebalanceTimeoutMs,
    MemberId := upto k 3 (y.MemberId) t0.MemberId,
    GroupInstanceId := upto k 4 (if version ≥ 5 then y.GroupInstanceId else t0.GroupInstanceId) t0.GroupInstanceId,
    ProtocolType := upto k 5 (y.ProtocolType) t0.ProtocolType,
    Protocols := y.Protocols.or t0.Protocols }

theorem JoinGroupRequest.sim (v : Int16) (t0 : JoinGroupRequest) : Sim (JoinGroupRequest.overAt v 0 · t0) (JoinGroupRequest.overAt v 7 · t0) (JoinGroupRequest.decode v) :=
  ((.field fun _ _ => rfl) : Sim (JoinGroupRequest.overAt v 0 · t0) (JoinGroupRequest.overAt v 1 · t0) _)
    |>.andThen ((.field fun _ _ => rfl) : Sim (JoinGroupRequest.overAt v 1 · t0) (JoinGroupRequest.overAt v 2 · t0) _)
    |>.andThen ((.onlyIf (fun hc => .field fun _ _ => by simp only [JoinGroupRequest.overAt, if_pos hc]; rfl) fun hc _ => by simp only [JoinGroupRequest.overAt, if_neg hc]; rfl) : Sim (JoinGroupRequest.overAt v 2 · t0) (JoinGroupRequest.overAt v 3 · t0) _)
    |>.andThen ((.field fun _ _ => rfl) : Sim (JoinGroupRequest.overAt v 3 · t0) (JoinGroupRequest.overAt v 4 · t0) _)
    |>.andThen ((.onlyIf (fun hc => .field fun _ _ => by simp only [JoinGroupRequest.overAt, if_pos hc]; rfl) fun hc _ => by simp only [JoinGroupRequest.overAt, if_neg hc]; rfl) : Sim (JoinGroupRequest.overAt v 4 · t0) (JoinGroupRequest.overAt v 5 · t0) _)
    |>.andThen ((.field fun _ _ => rfl) : Sim (JoinGroupRequest.overAt v 5 · t0) (JoinGroupRequest.overAt v 6 · t0) _)
    |>.andThen ((.structs (fun _ _ => rfl) fun _ => rfl) : Sim (JoinGroupRequest.overAt v 6 · t0) (JoinGroupRequest.overAt v 7 · t0) _)
theorem JoinGroupRequest.reusable : JoinGroupRequest.reuse.Holds JoinGroupRequest.layout where
  decode v t0 d := by
    have h := JoinGroupRequest.sim v t0 {} d
    have e : JoinGroupRequest.overAt v 0 {} t0 = t0 := by first | rfl | (simp only [JoinGroupRequest.overAt, upto_zero, Option.none_or, ite_self] <;> rfl)
    simp only [e] at h
    exact h
  same v y t0 h := (app_congr (app_congr (app_congr (app_congr (app_congr (app_congr rfl rfl) (again_opt Wire.int32 y.RebalanceTimeoutMs t0.RebalanceTimeoutMs)) rfl) (again_opt Wire.string y.GroupInstanceId t0.GroupInstanceId)) rfl) (same_or fun hn => h (hn)))
  stale v y h := by
    obtain h := h
    · exact ⟨({ Protocols := some [{}] } : JoinGroupRequest), (app_ne_right (app_congr (app_congr (app_congr (app_congr (app_congr rfl rfl) (again_opt Wire.int32 y.RebalanceTimeoutMs 0)) rfl) (again_opt Wire.string y.GroupInstanceId [])) rfl) (stale_or h))⟩

/-- What `t0` becomes where a new `JoinGroupResponseMember11` becomes `y`. -/
def JoinGroupResponseMember11.over (version : Int16) (y t0 : JoinGroupResponseMember11) : JoinGroupResponseMember11 :=
  { MemberId := y.MemberId,
    GroupInstanceId := if version ≥ 5 then y.GroupInstanceId else t0.GroupInstanceId,
    Metadata := y.Metadata }

/-- An array of structures is nil. -/
def JoinGroupResponseMember11.Nulls (_version : Int16) (_y : JoinGroupResponseMember11) : Prop :=
  False

/-- `JoinGroupResponseMember11` in use again. -/
def JoinGroupResponseMember11.reuse : Reuse JoinGroupResponseMember11.type := { over := JoinGroupResponseMember11.over, Nulls := JoinGroupResponseMember11.Nulls }

/-- The same after the first `k` statements of `Decode`. -/
def JoinGroupResponseMember11.overAt (version : Int16) (k : Nat) (y t0 : JoinGroupResponseMember11) : JoinGroupResponseMember11 :=
  { MemberId := upto k 0 (y.MemberId) t0.MemberId,
    GroupInstanceId := upto k 1 (if version ≥ 5 then y.GroupInstanceId else t0.GroupInstanceId) t0.GroupInstanceId,
    Metadata := upto k 2 (y.Metadata) t0.Metadata }

theorem JoinGroupResponseMember11.sim (v : Int16) (t0 : JoinGroupResponseMember11) : Sim (JoinGroupResponseMember11.overAt v 0 · t0) (JoinGroupResponseMember11.overAt v 3 · t0) (JoinGroupResponseMember11.decode v) :=
  ((.field fun _ _ => rfl) : Sim (JoinGroupResponseMember11.overAt v 0 · t0) (JoinGroupResponseMember11.overAt v 1 · t0) _)
    |>.andThen ((.onlyIf (fun hc => .field fun _ _ => by simp only [JoinGroupResponseMember11.overAt, if_pos hc]; rfl) fun hc _ => by simp only [JoinGroupResponseMember11.overAt, if_neg hc]; rfl) : Sim (JoinGroupResponseMember11.overAt v 1 · t0) (JoinGroupResponseMember11.overAt v 2 · t0) _)
    |>.andThen ((.field fun _ _ => rfl) : Sim (JoinGroupResponseMember11.overAt v 2 · t0) (JoinGroupResponseMember11.overAt v 3 · t0) _)
theorem JoinGroupResponseMember11.reusable : JoinGroupResponseMember11.reuse.Holds JoinGroupResponseMember11.layout where
  decode v t0 d := by
    have h := JoinGroupResponseMember11.sim v t0 {} d
    have e : JoinGroupResponseMember11.overAt v 0 {} t0 = t0 := by first | rfl | (simp only [JoinGroupResponseMember11.overAt, upto_zero, Option.none_or, ite_self] <;> rfl)
    simp only [e] at h
    exact h
  same v y t0 _h := (app_congr (app_congr rfl (again_opt Wire.string y.GroupInstanceId t0.GroupInstanceId)) rfl)
  stale _ _ h := h.elim

/-- What `t0` becomes where a new `JoinGroupResponse` becomes `y`. -/
def JoinGroupResponse.over (version : Int16) (y t0 : JoinGroupResponse) : JoinGroupResponse :=
  { ThrottleTimeMs := if version ≥ 2 then y.ThrottleTimeMs else t0.ThrottleTimeMs,
    ErrorCode := y.ErrorCode,
    GenerationId := y.GenerationId,
    ProtocolName := y.ProtocolName,
    Leader := y.Leader,
    MemberId := y.MemberId,
    Members := y.Members.or t0.Members }

/-- An array of structures is nil. -/
def JoinGroupResponse.Nulls (_version : Int16) (y : JoinGroupResponse) : Prop :=
  y.Members = none

/-- `JoinGroupResponse` in use again. -/
def JoinGroupResponse.reuse : Reuse JoinGroupResponse.type := { over := JoinGroupResponse.over, Nulls := JoinGroupResponse.Nulls }

/-- The same after the first `k` statements of `Decode`. -/
def JoinGroupResponse.overAt (version : Int16) (k : Nat) (y t0 : JoinGroupResponse) : JoinGroupResponse :=
  { ThrottleTimeMs := upto k 0 (if version ≥ 2 then y.ThrottleTimeMs else t0.ThrottleTimeMs) t0.ThrottleTimeMs,
    ErrorCode := upto k 1 (y.ErrorCode) t0.ErrorCode,
    GenerationId := upto k 2 (y.GenerationId) t0.GenerationId,
    ProtocolName := upto k 3 (y.ProtocolName) t0.ProtocolName,
    Leader := upto k 4 (y.Leader) t0.Leader,
    MemberId := upto k 5 (y.MemberId) t0.MemberId,
    Members := y.Members.or t0.Members }

theorem JoinGroupResponse.sim (v : Int16) (t0 : JoinGroupResponse) : Sim (JoinGroupResponse.overAt v 0 · t0) (JoinGroupResponse.overAt v 7 · t0) (JoinGroupResponse.decode v) :=
  ((.onlyIf (fun hc => .field fun _ _ => by simp only [JoinGroupResponse.overAt, if_pos hc]; rfl) fun hc _ => by simp only [JoinGroupResponse.overAt, if_neg hc]; rfl) : Sim (JoinGroupResponse.overAt v 0 · t0) (JoinGroupResponse.overAt v 1 · t0) _)
    |>.andThen ((.field fun _ _ => rfl) : Sim (JoinGroupResponse.overAt v 1 · t0) (JoinGroupResponse.overAt v 2 · t0) _)
    |>.andThen ((.field fun _ _ => rfl) : Sim (JoinGroupResponse.overAt v 2 · t0) (JoinGroupResponse.overAt v 3 · t0) _)
    |>.andThen ((.field fun _ _ => rfl) : Sim (JoinGroupResponse.overAt v 3 · t0) (JoinGroupResponse.overAt v 4 · t0) _)
    |>.andThen ((.field fun _ _ => rfl) : Sim (JoinGroupResponse.overAt v 4 · t0) (JoinGroupResponse.overAt v 5 · t0) _)
    |>.andThen ((.field fun _ _ => rfl) : Sim (JoinGroupResponse.overAt v 5 · t0) (JoinGroupResponse.overAt v 6 · t0) _)
    |>.andThen ((.structs (fun _ _ => rfl) fun _ => rfl) : Sim (JoinGroupResponse.overAt v 6 · t0) (JoinGroupResponse.overAt v 7 · t0) _)
theorem JoinGroupResponse.reusable : JoinGroupResponse.reuse.Holds JoinGroupResponse.layout where
  decode v t0 d := by
    have h := JoinGroupResponse.sim v t0 {} d
    have e : JoinGroupResponse.overAt v 0 {} t0 = t0 := by first | rfl | (simp only [JoinGroupResponse.overAt, upto_zero, Option.none_or, ite_self] <;> rfl)
    simp only [e] at h
    exact h
  same v y t0 h := (app_congr (app_congr (app_congr (app_congr (app_congr (app_congr (again_opt Wire.int32 y.ThrottleTimeMs t0.ThrottleTimeMs) rfl) rfl) rfl) rfl) rfl) (same_or fun hn => h (hn)))
  stale v y h := by
    obtain h := h
    · exact ⟨({ Members := some [{}] } : JoinGroupResponse), (app_ne_right (app_congr (app_congr (app_congr (app_congr (app_congr (again_opt Wire.int32 y.ThrottleTimeMs 0) rfl) rfl) rfl) rfl) rfl) (stale_or h))⟩

/-- The structures of the JoinGroup messages. -/
def reuseJoinGroup : List (Σ (M : MsgType) (_ : Layout M), Reuse M) :=
  [⟨JoinGroupRequest.type, JoinGroupRequest.layout, JoinGroupRequest.reuse⟩,
   ⟨JoinGroupRequestProtocol11.type, JoinGroupRequestProtocol11.layout, JoinGroupRequestProtocol11.reuse⟩,
   ⟨JoinGroupResponse.type, JoinGroupResponse.layout, JoinGroupResponse.reuse⟩,
   ⟨JoinGroupResponseMember11.type, JoinGroupResponseMember11.layout, JoinGroupResponseMember11.reuse⟩]
theorem reuseJoinGroup_holds : ∀ p ∈ reuseJoinGroup, p.2.2.Holds p.2.1 := by
  unfold reuseJoinGroup
  simp only [List.forall_mem_cons]
  exact ⟨JoinGroupRequest.reusable, JoinGroupRequestProtocol11.reusable, JoinGroupResponse.reusable, JoinGroupResponseMember11.reusable, fun _ h => absurd h (by simp)⟩

end Kafka.Msg
