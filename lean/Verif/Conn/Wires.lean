import Verif.Conn.Tokens
/-!
Invariants of the connection machine: the bytes on the wire are whole frames in the order of the
write lock.
-/
namespace Kafka.Conn

open Kafka

/-- The bytes `encode` writes for this call. -/
def CState.frame (x : CState) : List Byte := x.job.frame x.id

/-- The call has not started to write. -/
def CPc.before : CPc → Bool
  | .absent | .add | .rlock | .insert | .runlock | .wlock | .encode => true
  | _ => false

/-- The call's `Flush` has returned nil. -/
def CPc.flushed : CPc → Bool
  | .wunlock none | .recv | .done (.reply _) => true
  | _ => false

def CPc.isWriting : CPc → Bool
  | .writing _ => true
  | _ => false

structure Wires (s : State) : Prop where
  before : ∀ c, (s.calls c).pc.before = true → c ∉ s.started ∧ (s.calls c).sent = []
  nodup : s.started.Nodup
  wire : s.wire = s.started.flatMap fun c => (s.calls c).sent
  sent : ∀ c, (s.calls c).sent <+: (s.calls c).frame
  whole : ∀ c ∈ s.started.dropLast, (s.calls c).sent = (s.calls c).frame
  writing : ∀ c rest, (s.calls c).pc = .writing rest →
    s.started.getLast? = some c ∧ (s.calls c).sent ++ rest = (s.calls c).frame
  clean : s.werr = none → ∀ c ∈ s.started, (s.calls c).sent = (s.calls c).frame ∨ (s.calls c).pc.isWriting = true
  flushed : ∀ c, (s.calls c).pc.flushed = true → c ∈ s.started ∧ (s.calls c).sent = (s.calls c).frame
  err : ∀ c, (s.calls c).pc.isWriting = true → s.werr = none

theorem Wires.init (P : Params) : Wires (init P) := by
  constructor <;> simp [Conn.init, CPc.before, CPc.flushed, CPc.isWriting, CState.frame]

theorem flatMap_congr' {α β : Type} {l : List α} {f g : α → List β} (h : ∀ x ∈ l, f x = g x) :
    l.flatMap f = l.flatMap g := by
  rw [List.flatMap, List.flatMap, List.map_congr_left h]

/-- Steps that do not write. -/
theorem Wires.keep {s s' : State} (h : Wires s) (hst : s'.started = s.started) (hw : s'.wire = s.wire)
    (he : s'.werr = s.werr)
    (h1 : ∀ c, (s'.calls c).sent = (s.calls c).sent)
    (h2 : ∀ c, (s'.calls c).frame = (s.calls c).frame ∨ (s.calls c).pc.before = true)
    (h3 : ∀ c, (s'.calls c).pc.before = true → (s.calls c).pc.before = true)
    (h4 : ∀ c rest, (s'.calls c).pc = .writing rest → (s.calls c).pc = .writing rest)
    (h5 : ∀ c, (s.calls c).pc.isWriting = true → (s.calls c).pc = .writing [] ∨ (s'.calls c).pc.isWriting = true)
    (h6 : ∀ c, (s'.calls c).pc.flushed = true → (s.calls c).pc.flushed = true ∨ (s.calls c).pc = .writing []) :
    Wires s' := by
  have hf : ∀ c, c ∈ s.started → (s'.calls c).frame = (s.calls c).frame := fun c hc =>
    (h2 c).resolve_right fun hb => (h.before c hb).1 hc
  have hw' : ∀ c rest, (s.calls c).pc = .writing rest → c ∈ s.started := fun c rest hp =>
    List.mem_of_getLast? (h.writing c rest hp).1
  have hd : ∀ c, (s.calls c).pc = .writing [] → (s.calls c).sent = (s.calls c).frame := fun c hp => by
    have := (h.writing c [] hp).2
    rwa [List.append_nil] at this
  constructor
  · intro c hb
    rw [hst, h1]
    exact h.before c (h3 c hb)
  · rw [hst]; exact h.nodup
  · rw [hst, hw, h.wire]
    exact flatMap_congr' fun c _ => (h1 c).symm
  · intro c
    rw [h1]
    rcases h2 c with h' | h'
    · rw [h']; exact h.sent c
    · rw [(h.before c h').2]; exact List.nil_prefix
  · intro c hc
    rw [hst] at hc
    rw [h1, hf c ((List.dropLast_sublist _).subset hc)]
    exact h.whole c hc
  · intro c rest hp
    have hp' := h4 c rest hp
    rw [hst, h1, hf c (hw' c rest hp')]
    exact h.writing c rest hp'
  · intro hn c hc
    rw [hst] at hc
    rw [he] at hn
    rw [h1, hf c hc]
    rcases h.clean hn c hc with h' | h'
    · exact .inl h'
    · exact (h5 c h').imp (hd c) id
  · intro c hp
    rcases h6 c hp with h' | h'
    · rw [hst, h1, hf c (h.flushed c h').1]
      exact h.flushed c h'
    · rw [hst, h1, hf c (hw' c [] h')]
      exact ⟨hw' c [] h', hd c h'⟩
  · intro c hp
    rw [he]
    cases hq : (s'.calls c).pc with
    | writing rest => exact h.err c (by rw [h4 c rest hq]; rfl)
    | _ => rw [hq] at hp; cases hp

theorem getLast?_split {l : List Nat} {c : Nat} (h : l.getLast? = some c) : l = l.dropLast ++ [c] := by
  cases l with
  | nil => cases h
  | cons a l =>
    rw [List.getLast?_eq_some_getLast (by simp), Option.some.injEq] at h
    rw [← h]; exact (List.dropLast_concat_getLast (by simp)).symm

/-- The last call's bytes go to the end of the wire. -/
theorem wire_last {l : List Nat} {c : Nat} (hn : l.Nodup) (h : l.getLast? = some c) (f : Nat → List Byte)
    (bs : List Byte) : l.flatMap (fun j => if j = c then f c ++ bs else f j) = l.flatMap f ++ bs := by
  rw [getLast?_split h] at hn ⊢
  rw [List.nodup_append] at hn
  have hc : ∀ j ∈ l.dropLast, j ≠ c := fun j hj => hn.2.2 j hj c (by simp)
  rw [List.flatMap_append, List.flatMap_append, List.append_assoc]
  congr 1
  · exact flatMap_congr' fun j hj => if_neg (hc j hj)
  · simp

theorem Wires.trans {P : Params} {a : Act} {s s' : State} (h : Wires s) (hl : Locks s) (ht : Trans P s a s') :
    Wires s' := by
  cases ht
  case encode c hp he =>
    have hb := h.before c (by rw [hp]; rfl)
    have hme : s.writeLock = some c := (hl.callW c).1 (by rw [hp]; rfl)
    have hnw : ∀ j, (s.calls j).pc.isWriting = true → False := fun j hj => by
      have : s.writeLock = some j := (hl.callW j).1 (by
        cases hq : (s.calls j).pc <;> rw [hq] at hj <;> first | rfl | cases hj)
      rw [hme, Option.some.injEq] at this
      subst this
      rw [hp] at hj
      cases hj
    have hall : ∀ j ∈ s.started, (s.calls j).sent = (s.calls j).frame := fun j hj =>
      (h.clean he j hj).resolve_right (hnw j)
    have hne : ∀ j ∈ s.started, j ≠ c := fun j hj hc => hb.1 (hc ▸ hj)
    constructor
    · intro j hj
      simp only [State.set] at hj ⊢
      split at hj
      · cases hj
      · rename_i hjc
        rw [if_neg hjc]
        have := h.before j hj
        exact ⟨by simp [this.1, hjc], this.2⟩
    · show (s.started ++ [c]).Nodup
      rw [List.nodup_append]
      exact ⟨h.nodup, by simp, fun a ha b hb' => by simp at hb'; rw [hb']; exact hne a ha⟩
    · show s.wire = (s.started ++ [c]).flatMap _
      rw [List.flatMap_append, h.wire]
      simp only [State.set, List.flatMap_cons, List.flatMap_nil, if_pos, hb.2, List.append_nil]
      exact flatMap_congr' fun j hj => by rw [if_neg (hne j hj)]
    · intro j
      simp only [State.set, CState.frame]
      split
      · rw [hb.2]; exact List.nil_prefix
      · exact h.sent j
    · intro j hj
      have hj' : j ∈ s.started := by simpa [State.set] using hj
      simp only [State.set, CState.frame, if_neg (hne j hj')]
      exact hall j hj'
    · intro j rest hj
      simp only [State.set, CState.frame] at hj ⊢
      split at hj
      · rename_i hjc
        subst hjc
        simp only [if_pos]
        cases hj
        exact ⟨by simp, by rw [hb.2, List.nil_append]⟩
      · exact (hnw j (by rw [hj]; rfl)).elim
    · intro _ j hj
      simp only [State.set, CState.frame] at hj ⊢
      split
      · exact .inr rfl
      · rename_i hjc
        exact .inl (hall j (by simpa [hjc] using hj))
    · intro j hj
      simp only [State.set, CState.frame] at hj ⊢
      split at hj
      · cases hj
      · rename_i hjc
        rw [if_neg hjc]
        have := h.flushed j hj
        exact ⟨by simp [this.1], this.2⟩
    · intro _ _
      exact he
  case write c k rest hp hk hk2 hr =>
    have hw := h.writing c rest hp
    have hne : ∀ j, (s.calls j).pc.isWriting = true → j = c := fun j hj => by
      have h1 : s.writeLock = some j := (hl.callW j).1 (by
        cases hq : (s.calls j).pc <;> rw [hq] at hj <;> first | rfl | cases hj)
      have h2 : s.writeLock = some c := (hl.callW c).1 (by rw [hp]; rfl)
      rw [h2, Option.some.injEq] at h1
      exact h1.symm
    have hsent : (s.calls c).sent ++ rest.take k <+: (s.calls c).frame := by
      rw [← hw.2]
      exact (List.prefix_append_right_inj _).2 (List.take_prefix _ _)
    constructor
    · intro j hj
      simp only [State.set] at hj ⊢
      split at hj
      · cases hj
      · rename_i hjc
        rw [if_neg hjc]
        exact h.before j hj
    · exact h.nodup
    · show s.wire ++ rest.take k = s.started.flatMap _
      rw [h.wire, ← wire_last h.nodup hw.1]
      refine flatMap_congr' fun j _ => ?_
      simp only [State.set]
      split <;> rfl
    · intro j
      simp only [State.set, CState.frame]
      split
      · exact hsent
      · exact h.sent j
    · intro j hj
      have hjc : j ≠ c := by
        have hn := h.nodup
        rw [getLast?_split hw.1, List.nodup_append] at hn
        exact hn.2.2 j hj c (by simp)
      simp only [State.set, CState.frame, if_neg hjc]
      exact h.whole j hj
    · intro j rest' hj
      simp only [State.set, CState.frame] at hj ⊢
      split at hj
      · rename_i hjc
        subst hjc
        simp only [if_pos]
        cases hj
        refine ⟨hw.1, ?_⟩
        rw [List.append_assoc, List.take_append_drop]
        exact hw.2
      · rename_i hjc
        exact absurd (hne j (by rw [hj]; rfl)) hjc
    · intro hn j hj
      simp only [State.set, CState.frame] at hj ⊢
      split
      · exact .inr rfl
      · exact h.clean hn j hj
    · intro j hj
      simp only [State.set, CState.frame] at hj ⊢
      split at hj
      · cases hj
      · rename_i hjc
        rw [if_neg hjc]
        exact h.flushed j hj
    · intro _ _
      exact h.err c (by rw [hp]; rfl)
  case writeErr c k e rest hp hre hk2 hr =>
    have hw := h.writing c rest hp
    have hne : ∀ j, (s.calls j).pc.isWriting = true → j = c := fun j hj => by
      have h1 : s.writeLock = some j := (hl.callW j).1 (by
        cases hq : (s.calls j).pc <;> rw [hq] at hj <;> first | rfl | cases hj)
      have h2 : s.writeLock = some c := (hl.callW c).1 (by rw [hp]; rfl)
      rw [h2, Option.some.injEq] at h1
      exact h1.symm
    have hsent : (s.calls c).sent ++ rest.take k <+: (s.calls c).frame := by
      rw [← hw.2]
      exact (List.prefix_append_right_inj _).2 (List.take_prefix _ _)
    constructor
    · intro j hj
      simp only [State.set] at hj ⊢
      split at hj
      · cases hj
      · rename_i hjc
        rw [if_neg hjc]
        exact h.before j hj
    · exact h.nodup
    · show s.wire ++ rest.take k = s.started.flatMap _
      rw [h.wire, ← wire_last h.nodup hw.1]
      refine flatMap_congr' fun j _ => ?_
      simp only [State.set]
      split <;> rfl
    · intro j
      simp only [State.set, CState.frame]
      split
      · exact hsent
      · exact h.sent j
    · intro j hj
      have hjc : j ≠ c := by
        have hn := h.nodup
        rw [getLast?_split hw.1, List.nodup_append] at hn
        exact hn.2.2 j hj c (by simp)
      simp only [State.set, CState.frame, if_neg hjc]
      exact h.whole j hj
    · intro j rest' hj
      simp only [State.set, CState.frame] at hj ⊢
      split at hj
      · cases hj
      · rename_i hjc
        exact absurd (hne j (by rw [hj]; rfl)) hjc
    · intro hn
      cases hn
    · intro j hj
      simp only [State.set, CState.frame] at hj ⊢
      split at hj
      · cases hj
      · rename_i hjc
        rw [if_neg hjc]
        exact h.flushed j hj
    · intro j hj
      simp only [State.set] at hj ⊢
      split at hj
      · cases hj
      · rename_i hjc
        exact absurd (hne j hj) hjc
  all_goals
    refine h.keep rfl rfl rfl ?_ ?_ ?_ ?_ ?_ ?_
    all_goals
      intro j
      try simp only [State.set]
      try grind [CPc.before, CPc.flushed, CPc.isWriting, CState.frame]

theorem Reach.wires {P : Params} {ok : State → Act → Prop} {s : State} (h : Reach P ok s) : Wires s :=
  h.inv (Wires.init P) fun hr h _ ht => h.trans hr.locks ht

end Kafka.Conn
