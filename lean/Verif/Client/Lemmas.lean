import Verif.Client.Model
import Verif.Broker.FrameLemmas
import Verif.Broker.NegotiateLemmas
/-!
Lemmas on the client: what the calls add to the trace.
-/
namespace Kafka.Client

open Msg

/-- A call adds only events satisfying `Q`. -/
def Does {α : Type} (Q : Event → Prop) (m : M α) : Prop :=
  ∀ env tr, ∃ ev, (m env tr).2 = tr ++ ev ∧ ∀ e ∈ ev, Q e

theorem Does.bind {α β : Type} {Q : Event → Prop} {m : M α} {f : α → M β} (hm : Does Q m) (hf : ∀ a, Does Q (f a)) :
    Does Q (m.bind f) := by
  intro env tr
  obtain ⟨ev, h1, h2⟩ := hm env tr
  unfold M.bind
  split
  case h_1 a tr' heq =>
    rw [heq] at h1
    obtain ⟨ev', h3, h4⟩ := hf a env tr'
    subst h1
    refine ⟨ev ++ ev', by rw [h3, List.append_assoc], fun e he => ?_⟩
    rcases List.mem_append.1 he with he | he
    · exact h2 e he
    · exact h4 e he
  all_goals
    rename_i heq
    rw [heq] at h1
    exact ⟨ev, h1, h2⟩

theorem wrap_eq {α : Type} (p : Prefix) (m : M α) (env : Env) (tr : Trace) :
    M.wrap p m env tr = (match (m env tr).1 with
      | .ok a => .ok a
      | .err e => .err (.wrap p e)
      | .panic => .panic
      | .hang => .hang, (m env tr).2) := by
  unfold M.wrap
  split <;> rename_i h <;> rw [h]

theorem wrap_snd {α : Type} (p : Prefix) (m : M α) (env : Env) (tr : Trace) :
    (M.wrap p m env tr).2 = (m env tr).2 := by rw [wrap_eq]

theorem wrap_ok {α : Type} {p : Prefix} {m : M α} {env : Env} {tr tr' : Trace} {a : α}
    : M.wrap p m env tr = (.ok a, tr') ↔ m env tr = (.ok a, tr') := by
  unfold M.wrap
  split <;> rename_i h <;> rw [h] <;> simp

theorem wrap_err {α : Type} {p : Prefix} {m : M α} {env : Env} {tr tr' : Trace} {x : Err}
    (h : M.wrap p m env tr = (.err x, tr')) : ∃ y, x = .wrap p y ∧ m env tr = (.err y, tr') := by
  unfold M.wrap at h
  split at h <;> cases h
  rename_i h
  exact ⟨_, rfl, h⟩

theorem Does.wrap {α : Type} {Q : Event → Prop} {p : Prefix} {m : M α} (h : Does Q m) : Does Q (M.wrap p m) := by
  intro env tr
  rw [wrap_snd]
  exact h env tr

theorem Does.ok {α : Type} {Q : Event → Prop} (a : α) : Does Q (M.ok a) := fun _ tr => ⟨[], by simp [M.ok], by simp⟩
theorem Does.err {α : Type} {Q : Event → Prop} (e : Err) : Does Q (M.err e : M α) :=
  fun _ tr => ⟨[], by simp [M.err], by simp⟩

theorem Does.connect {Q : Event → Prop} {addr : GoString} {opts : List Opt}
    (h : ∀ r, Q (.dial addr (dialMode (buildConfig opts)) r)) : Does Q (connect addr opts) := by
  intro env tr
  unfold Client.connect
  split
  · exact ⟨[], by simp, by simp⟩
  · split
    · exact ⟨_, rfl, by intro e he; rw [List.mem_singleton] at he; subst he; exact h _⟩
    · exact ⟨_, rfl, by intro e he; rw [List.mem_singleton] at he; subst he; exact h _⟩

theorem Does.doCall {α : Type} {Q : Event → Prop} {conn : Nat} {call : Call α}
    (h : ∀ id r, Q (.request conn (bytesOf (call.encode id)) r)) : Does Q (doCall conn call) := by
  intro env tr
  unfold Client.doCall
  dsimp only
  repeat' split
  all_goals exact ⟨_, rfl, by intro e he; rw [List.mem_singleton] at he; subst he; exact h _ _⟩

theorem Does.newBroker {Q : Event → Prop} {addr : GoString} {opts : List Opt}
    (h : ∀ r, Q (.dial addr (dialMode (buildConfig opts)) r))
    (hq : ∀ conn id r, Q (.request conn
      (bytesOf ((Broker.apiVersions { config := buildConfig opts } {}).encode id)) r)) :
    Does Q (newBroker addr opts) := by
  unfold Client.newBroker
  refine (Does.connect h).bind fun conn => (Does.doCall fun id r => hq conn id r).wrap.bind fun resp => ?_
  intro env tr
  dsimp only
  repeat' split
  all_goals exact ⟨[], by simp, by simp⟩

theorem newBroker_config {addr : GoString} {opts : List Opt} {env : Env} {tr tr' : Trace} {h : Handle}
    (e : newBroker addr opts env tr = (.ok h, tr')) : h.broker.config = buildConfig opts := by
  unfold newBroker M.bind at e
  dsimp only at e
  repeat' split at e
  all_goals first
    | (cases e; done)
    | skip
  all_goals
    rename_i e'
    repeat' split at e
    all_goals first
      | (cases e; done)
      | skip
  all_goals
    cases e
    rfl

@[simp] theorem sent_append_dial (tr : Trace) (a : GoString) (m : DialMode) (r : Option NetErr) (n : Nat) :
    Trace.sent (tr ++ [.dial a m r]) n = Trace.sent tr n := by
  simp [Trace.sent, List.countP_append]

/-- What a successful `NewBroker` did. -/
structure Connected (addr : GoString) (opts : List Opt) (tr : Trace) (h : Handle) (tr' : Trace) : Prop where
  conn : h.conn = tr.dialed
  config : h.broker.config = buildConfig opts
  dialer : dialMode (buildConfig opts) ≠ .nilDialer
  reply : ∃ body stale resp d,
    tr' = tr ++ [.dial addr (dialMode (buildConfig opts)) none,
      .request tr.dialed (bytesOf ((Broker.apiVersions { config := buildConfig opts } {}).encode
        (Int32.ofNat (tr.sent tr.dialed + 1)))) (.frame body stale)] ∧
    (Broker.apiVersions { config := buildConfig opts } {}).decode
      { raw := Wire.int32 (Int32.ofNat (tr.sent tr.dialed + 1)) ++ body ++ stale,
        length := (Wire.int32 (Int32.ofNat (tr.sent tr.dialed + 1)) ++ body).length,
        offset := 4 } = .ok resp d ∧
    negotiateApiVersions negotiateFuel resp.ApiKeys = some (.ok h.broker.apiVersion)

theorem connect_ok {addr : GoString} {opts : List Opt} {env : Env} {tr tr' : Trace} {n : Nat}
    (e : connect addr opts env tr = (.ok n, tr')) : n = tr.dialed ∧ dialMode (buildConfig opts) ≠ .nilDialer ∧
      tr' = tr ++ [.dial addr (dialMode (buildConfig opts)) none] := by
  unfold connect at e
  split at e
  · cases e
  · rename_i hm
    split at e
    · cases e
    · cases e; exact ⟨rfl, hm, rfl⟩

theorem doCall_ok {α : Type} {conn : Nat} {call : Call α} {env : Env} {tr tr' : Trace} {a : α}
    (e : doCall conn call env tr = (.ok a, tr')) : ∃ body stale d,
      tr' = tr ++ [.request conn (bytesOf (call.encode (Int32.ofNat (tr.sent conn + 1)))) (.frame body stale)] ∧
      call.decode { raw := Wire.int32 (Int32.ofNat (tr.sent conn + 1)) ++ body ++ stale,
                    length := (Wire.int32 (Int32.ofNat (tr.sent conn + 1)) ++ body).length, offset := 4 } = .ok a d := by
  unfold doCall at e
  dsimp only at e
  split at e
  · cases e
  · cases e
  · cases e
  · rename_i body stale hr
    split at e
    · rename_i d hd
      simp only [Prod.mk.injEq, Out.ok.injEq] at e
      obtain ⟨rfl, rfl⟩ := e
      exact ⟨body, stale, d, by rw [hr], hd⟩
    · cases e
    · cases e

theorem bind_ok {α β : Type} {m : M α} {f : α → M β} {env : Env} {tr tr' : Trace} {b : β}
    (e : m.bind f env tr = (.ok b, tr')) : ∃ a tr1, m env tr = (.ok a, tr1) ∧ f a env tr1 = (.ok b, tr') := by
  unfold M.bind at e
  split at e
  · rename_i a tr1 h; exact ⟨a, tr1, h, e⟩
  all_goals cases e

theorem newBroker_ok {addr : GoString} {opts : List Opt} {env : Env} {tr tr' : Trace} {h : Handle}
    (e : newBroker addr opts env tr = (.ok h, tr')) : Connected addr opts tr h tr' := by
  unfold newBroker at e
  dsimp only at e
  obtain ⟨n, tr1, e1, e⟩ := bind_ok e
  obtain ⟨resp, tr2, e2, e⟩ := bind_ok e
  obtain ⟨rfl, hm, rfl⟩ := connect_ok e1
  obtain ⟨body, stale, d, rfl, hd⟩ := doCall_ok (wrap_ok.1 e2)
  split at e
  · cases e
  · cases e
  · rename_i v hv
    simp only [Prod.mk.injEq, Out.ok.injEq] at e
    obtain ⟨rfl, rfl⟩ := e
    rw [sent_append_dial] at hd
    exact ⟨rfl, rfl, hm, body, stale, resp, d, by rw [List.append_assoc, sent_append_dial]; rfl, hd, hv⟩

/-- What a failed `NewBroker` did. -/
theorem newBroker_err {addr : GoString} {opts : List Opt} {env : Env} {tr tr' : Trace} {x : Err}
    (e : newBroker addr opts env tr = (.err x, tr')) :
    (∃ y, tr' = tr ++ [.dial addr (dialMode (buildConfig opts)) (some y)]) ∨
    ∃ bytes r, tr' = tr ++ [.dial addr (dialMode (buildConfig opts)) none, .request tr.dialed bytes r] := by
  unfold newBroker at e
  dsimp only at e
  cases hc : connect addr opts env tr with
  | mk o tr1 =>
    simp only [M.bind, hc] at e
    cases o with
    | panic => cases e
    | hang => cases e
    | err y =>
      cases e
      left
      unfold connect at hc
      split at hc
      · cases hc
      · split at hc
        · cases hc; exact ⟨_, rfl⟩
        · cases hc
    | ok n =>
      obtain ⟨rfl, hm, rfl⟩ := connect_ok hc
      right
      dsimp only at e
      have key : tr' = (doCall tr.dialed (Broker.apiVersions { config := buildConfig opts } {}) env
          (tr ++ [.dial addr (dialMode (buildConfig opts)) none])).2 := by
        rw [← wrap_snd .create]
        split at e
        · rename_i h2
          rw [h2]
          split at e <;> cases e
          rfl
        · rename_i h2; rw [h2]; cases e; rfl
        · cases e
        · cases e
      unfold doCall at key
      dsimp only at key
      repeat' split at key
      all_goals exact ⟨_, _, by rw [key, List.append_assoc]; rfl⟩

/-- The bound on the negotiation decides whether it ends. -/
theorem negotiateFuel_exact (ks : Slice ApiVersionsResponseKey18) :
    (∀ r, negotiateApiVersions negotiateFuel ks = some r ↔ Negotiates ks r) ∧
    (negotiateApiVersions negotiateFuel ks = none ↔ NegotiateHangs ks) := by
  have hsome : (∃ r, Negotiates ks r) → ∃ r, negotiateApiVersions negotiateFuel ks = some r := by
    rintro ⟨r, f, hf⟩
    rcases accepted_or_rejected ks.elems with h' | ⟨k, a, hr⟩
    · obtain ⟨av', h5, _⟩ := negotiateLoop_accepted h' 65536 {}
      exact ⟨_, h5⟩
    · by_cases hk : k.MinVersion = -32768
      · have := negotiateLoop_hangs hr hk f {}
        unfold negotiateApiVersions at hf
        rw [this] at hf; cases hf
      · exact ⟨_, negotiateLoop_rejected hr hk 0 {}⟩
  constructor
  · intro r
    constructor
    · intro h; exact ⟨_, h⟩
    · intro h
      obtain ⟨r', hr'⟩ := hsome ⟨r, h⟩
      rw [hr', Negotiates.unique h ⟨_, hr'⟩]
  · constructor
    · intro h f
      cases hf : negotiateApiVersions f ks with
      | none => rfl
      | some r =>
        obtain ⟨r', hr'⟩ := hsome ⟨r, f, hf⟩
        rw [h] at hr'; cases hr'
    · intro h; exact h _

end Kafka.Client
