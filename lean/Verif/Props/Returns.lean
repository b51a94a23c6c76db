import Verif.Props.Client
/-!
Properties C68 and C69: how long the operations of a client take, and how much they do on the network.
-/
namespace Kafka.Props

open Kafka.Client Kafka.Msg

/-! ## C68: contexts -/

/-- A context: whether it is done, after what has happened on the network. -/
abbrev Context := Trace → Bool

/-- client.go:84, 94, 102, 122: the operations with their context.  They hand it on to `Metadata` (85, 103) and
`dialCoordinator` (95), and these do not look at it (65-81, 122-140). -/
def ClientOp.runWith {α : Type} (c : Client) (op : ClientOp α) (_ctx : Context) : M α := op.run c

/-- The full claim: no operation waits for ever if its context is done. -/
def C68_statement : Prop :=
  ∀ {α : Type} (c : Client) (op : ClientOp α) (ctx : Context) (env : Env) (tr tr' : Trace), (∀ t, ctx t = true) →
    op.runWith c ctx env tr ≠ (.hang, tr')

/-- The last thing that happened is a request that is never answered. -/
def Unanswered (env : Env) (tr : Trace) : Prop :=
  ∃ tr0 n bytes, env.reply tr0 n bytes = .never ∧ tr = tr0 ++ [.request n bytes .never]

/-- The last thing that happened is a reply to the request for versions, with versions on which `matchVersion` goes on for
ever (C23). -/
def Endless (env : Env) (opts : List Opt) (tr : Trace) : Prop :=
  ∃ tr0 n bytes body stale id resp d, env.reply tr0 n bytes = .frame body stale ∧ tr = tr0 ++ [.request n bytes (.frame body stale)] ∧
    (Broker.apiVersions { config := buildConfig opts } {}).decode
      { raw := Wire.int32 id ++ body ++ stale, length := (Wire.int32 id ++ body).length, offset := 4 } = .ok resp d ∧
    NegotiateHangs resp.ApiKeys

/-- When it goes on for ever, it is for one of these reasons. -/
def Blames {α : Type} (opts : List Opt) (m : M α) : Prop :=
  ∀ env tr tr', m env tr = (.hang, tr') → Unanswered env tr' ∨ Endless env opts tr'

theorem Blames.bind {α β : Type} {opts : List Opt} {m : M α} {f : α → M β} (hm : Blames opts m) (hf : ∀ a, Blames opts (f a)) :
    Blames opts (m.bind f) := by
  intro env tr tr' h
  unfold M.bind at h
  split at h
  · exact hf _ _ _ _ h
  · cases h
  · cases h
  · rename_i tr1 e
    cases h
    exact hm _ _ _ e

theorem Blames.ok {α : Type} {opts : List Opt} (a : α) : Blames opts (M.ok a) := by intro env tr tr' h; cases h
theorem Blames.err {α : Type} {opts : List Opt} (e : Err) : Blames opts (M.err e : M α) := by intro env tr tr' h; cases h

theorem Blames.doCall {α : Type} {opts : List Opt} (n : Nat) (call : Call α) : Blames opts (Client.doCall n call) := by
  intro env tr tr' h
  unfold Client.doCall at h
  dsimp only at h
  split at h
  · cases h
  · rename_i hr
    cases h
    exact .inl ⟨tr, n, _, hr, by rw [hr]⟩
  · cases h
  · split at h <;> cases h

theorem doCall_replied {α : Type} {conn : Nat} {call : Call α} {env : Env} {tr tr' : Trace} {a : α}
    (e : doCall conn call env tr = (.ok a, tr')) : ∃ body stale d,
      env.reply tr conn (bytesOf (call.encode (Int32.ofNat (tr.sent conn + 1)))) = .frame body stale ∧
      tr' = tr ++ [.request conn (bytesOf (call.encode (Int32.ofNat (tr.sent conn + 1)))) (.frame body stale)] ∧
      call.decode { raw := Wire.int32 (Int32.ofNat (tr.sent conn + 1)) ++ body ++ stale,
                    length := (Wire.int32 (Int32.ofNat (tr.sent conn + 1)) ++ body).length, offset := 4 } = .ok a d := by
  unfold doCall at e
  dsimp only at e
  split at e
  · cases e
  · cases e
  · cases e
  · rename_i body stale hr
    split at e
    · rename_i d hd
      simp only [Prod.mk.injEq, Out.ok.injEq] at e
      obtain ⟨rfl, rfl⟩ := e
      exact ⟨body, stale, d, hr, by rw [hr], hd⟩
    · cases e
    · cases e

theorem Blames.newBroker (addr : GoString) (opts : List Opt) : Blames opts (Client.newBroker addr opts) := by
  intro env tr tr' h
  unfold Client.newBroker at h
  dsimp only at h
  cases hc : connect addr opts env tr with
  | mk o tr1 =>
    simp only [M.bind, hc] at h
    cases o with
    | panic => cases h
    | err y => cases h
    | hang =>
      unfold connect at hc
      split at hc
      · cases hc
      · split at hc <;> cases hc
    | ok n =>
      dsimp only at h
      cases hd : Client.doCall n (Broker.apiVersions { config := buildConfig opts } {}) env tr1 with
      | mk o2 tr2 =>
        simp only [M.wrap, hd] at h
        cases o2 with
        | panic => cases h
        | err y => cases h
        | hang =>
          cases h
          exact Blames.doCall n _ _ _ _ hd
        | ok resp =>
          dsimp only at h
          obtain ⟨body, stale, d, h1, h2, h3⟩ := doCall_replied hd
          split at h
          · rename_i hn
            cases h
            exact .inr ⟨tr1, n, _, body, stale, _, resp, d, h1, h2, h3, ((negotiateFuel_exact _).2).1 hn⟩
          · cases h
          · cases h

theorem Blames.dialLoop {α : Type} (opts : List Opt) (cb : Handle → M α) (zero : α) (hcb : ∀ h, Blames opts (cb h)) :
    ∀ (addrs : List GoString) (last : Option Err), Blames opts (Client.dialLoop opts cb zero addrs last) := by
  intro addrs
  induction addrs with
  | nil =>
    intro last
    cases last with
    | none => exact Blames.ok zero
    | some e => exact Blames.err e
  | cons a addrs ih =>
    intro last env tr tr' h
    unfold Client.dialLoop at h
    split at h
    · exact hcb _ _ _ _ h
    · exact ih _ _ _ _ h
    · cases h
    · rename_i tr1 hb
      cases h
      exact Blames.newBroker a opts _ _ _ hb

theorem Blames.dialNode (c : Client) (m : MetadataResponse) (id : Int32) : Blames c.opts (c.dialNode m id) := by
  rcases dialNode_cases c m id with ⟨b, _, _, h⟩ | ⟨_, h⟩
  · rw [h]; exact Blames.newBroker _ _
  · rw [h]; exact Blames.err _

theorem Blames.metadata (c : Client) (topics : List GoString) : Blames c.opts (c.metadata topics) :=
  Blames.dialLoop c.opts _ _ (fun h => Blames.doCall h.conn _) _ _

theorem Blames.op {α : Type} (c : Client) (op : ClientOp α) : Blames c.opts (op.run c) := by
  cases op with
  | metadata topics => exact Blames.metadata c topics
  | controller => exact (Blames.metadata c []).bind fun m => Blames.dialNode c m _
  | leader topic partition =>
    refine (Blames.metadata c [topic]).bind fun m => ?_
    split
    · exact Blames.err _
    · split
      · exact Blames.err _
      · exact Blames.dialNode c m _
  | coordinator group =>
    exact Blames.bind (Blames.dialLoop c.opts _ _ (fun h => Blames.doCall h.conn _) _ _) fun resp => Blames.newBroker _ _

/-- What holds: an operation that waits for ever has just sent a request that is never answered, or been told versions
on which negotiation never ends.  Missing: that the context ends it. -/
theorem C68_partial {α : Type} (c : Client) (op : ClientOp α) (ctx : Context) (env : Env) (tr tr' : Trace)
    (h : op.runWith c ctx env tr = (.hang, tr')) : Unanswered env tr' ∨ Endless env c.opts tr' :=
  Blames.op c op env tr tr' h

/-- So with brokers that answer, and have no range that begins at -32768, every operation ends. -/
theorem C68_answered {α : Type} (c : Client) (op : ClientOp α) (ctx : Context) (env : Env) (tr tr' : Trace)
    (hr : ∀ tr n bytes, env.reply tr n bytes ≠ .never)
    (hv : ∀ tr n bytes body stale id resp d, env.reply tr n bytes = .frame body stale →
      (Broker.apiVersions { config := buildConfig c.opts } {}).decode
        { raw := Wire.int32 id ++ body ++ stale, length := (Wire.int32 id ++ body).length, offset := 4 } = .ok resp d →
      ∀ k ∈ resp.ApiKeys.elems, k.MinVersion ≠ -32768) :
    op.runWith c ctx env tr ≠ (.hang, tr') := by
  intro h
  rcases C68_partial c op ctx env tr tr' h with ⟨_, _, _, h1, _⟩ | ⟨_, _, _, _, _, _, resp, _, h1, _, h3, h4⟩
  · exact hr _ _ _ h1
  · obtain ⟨r, f, h5⟩ := C23_partial resp.ApiKeys (hv _ _ _ _ _ _ _ _ h1 h3)
    rw [h4 f] at h5
    cases h5

/-- The full claim is false, for each of the operations and whatever the context: a bootstrap broker that accepts the
connection and does not answer is enough. -/
theorem C68_silent {α : Type} (op : ClientOp α) (addr : GoString) (addrs : List GoString) (ctx : Context) (tr : Trace) :
    ∃ tr', op.runWith (newClient (addr :: addrs) []) ctx { dial := fun _ _ => none, reply := fun _ _ _ => .never } tr =
      (.hang, tr') := by
  have hb : ∃ tr', newBroker addr [] { dial := fun _ _ => none, reply := fun _ _ _ => .never } tr = (.hang, tr') := ⟨_, rfl⟩
  obtain ⟨tr', hb⟩ := hb
  have hl : ∀ {β : Type} (cb : Handle → M β) (z : β),
      (newClient (addr :: addrs) []).dialBootstrap cb z { dial := fun _ _ => none, reply := fun _ _ _ => .never } tr = (.hang, tr') := by
    intro β cb z
    show dialLoop [] cb z (addr :: addrs) none _ tr = _
    unfold dialLoop
    rw [hb]
  refine ⟨tr', ?_⟩
  unfold ClientOp.runWith
  cases op <;> simp only [ClientOp.run, Client.dialController, Client.dialLeader, Client.dialGroupCoordinator,
    Client.dialCoordinator, Client.metadata, M.bind, hl]

theorem C68_fails : ¬C68_statement := by
  intro h
  obtain ⟨tr', e⟩ := C68_silent .controller addrA [] (fun _ => true) []
  exact h _ _ _ _ _ _ (fun _ => rfl) e

/-- A network as in `C68_answered`. -/
example : ∀ tr n bytes, (sampleNet (· == addrB) 1 [] []).reply tr n bytes ≠ .never := by
  intro tr n bytes
  unfold sampleNet
  dsimp only
  repeat' split
  all_goals simp

/-! ## C69: connections and requests -/

def dialCount (ev : List Event) : Nat := ev.countP fun | .dial .. => true | _ => false
def requestCount (ev : List Event) : Nat := ev.countP fun | .request .. => true | _ => false

/-- What is done on the network is at most `d` dials and `q` requests, and no request is sent on the first `k`
connections. -/
def Modest {α : Type} (k d q : Nat) (m : M α) : Prop :=
  ∀ env tr, k ≤ tr.dialed → ∃ ev, (m env tr).2 = tr ++ ev ∧ dialCount ev ≤ d ∧ requestCount ev ≤ q ∧
    ∀ n bytes r, .request n bytes r ∈ ev → k ≤ n

theorem dialed_append (a b : Trace) : Trace.dialed (a ++ b) = Trace.dialed a + Trace.dialed b := by
  simp [Trace.dialed]

theorem Modest.bind {α β : Type} {k d q d' q' : Nat} {m : M α} {f : α → M β} (hm : Modest k d q m)
    (hf : ∀ a, Modest k d' q' (f a)) : Modest k (d + d') (q + q') (m.bind f) := by
  intro env tr hk
  obtain ⟨ev, h1, h2, h3, h4⟩ := hm env tr hk
  unfold M.bind
  split
  · rename_i a tr1 e
    rw [e] at h1
    dsimp only at h1
    obtain ⟨ev', g1, g2, g3, g4⟩ := hf a env tr1 (by rw [h1, dialed_append]; omega)
    refine ⟨ev ++ ev', by rw [g1, h1, List.append_assoc], ?_, ?_, ?_⟩
    · unfold dialCount at *; rw [List.countP_append]; omega
    · unfold requestCount at *; rw [List.countP_append]; omega
    · intro n bytes r h
      rcases List.mem_append.1 h with h | h
      · exact h4 n bytes r h
      · exact g4 n bytes r h
  all_goals
    rename_i e
    rw [e] at h1
    exact ⟨ev, h1, by omega, by omega, h4⟩

theorem Modest.ok {α : Type} {k d q : Nat} (a : α) : Modest k d q (M.ok a) :=
  fun _ tr _ => ⟨[], by simp [M.ok], by simp [dialCount], by simp [requestCount], by simp⟩
theorem Modest.err {α : Type} {k d q : Nat} (e : Err) : Modest k d q (M.err e : M α) :=
  fun _ tr _ => ⟨[], by simp [M.err], by simp [dialCount], by simp [requestCount], by simp⟩

theorem Modest.doCall {α : Type} {k n : Nat} (hn : k ≤ n) (call : Call α) : Modest k 0 1 (Client.doCall n call) := by
  intro env tr _
  refine ⟨[.request n (bytesOf (call.encode (Int32.ofNat (tr.sent n + 1))))
    (env.reply tr n (bytesOf (call.encode (Int32.ofNat (tr.sent n + 1)))))], ?_, by simp [dialCount], by simp [requestCount], ?_⟩
  · unfold Client.doCall
    dsimp only
    split
    · rfl
    · rfl
    · rfl
    · split <;> rfl
  · intro n' bytes r h
    rw [List.mem_singleton] at h
    cases h
    exact hn

theorem Modest.newBroker {k : Nat} (addr : GoString) (opts : List Opt) : Modest k 1 1 (Client.newBroker addr opts) := by
  intro env tr hk
  unfold Client.newBroker
  dsimp only
  cases hc : connect addr opts env tr with
  | mk o tr1 =>
    have h1 : ∃ ev, tr1 = tr ++ ev ∧ dialCount ev ≤ 1 ∧ requestCount ev = 0 := by
      unfold connect at hc
      split at hc
      · cases hc; exact ⟨[], by simp, by simp [dialCount], by simp [requestCount]⟩
      · split at hc <;> cases hc <;> exact ⟨_, rfl, by simp [dialCount], by simp [requestCount]⟩
    obtain ⟨ev, rfl, hd, hq⟩ := h1
    have hno : ∀ n bytes r, .request n bytes r ∈ ev → k ≤ n := by
      intro n bytes r h
      unfold requestCount at hq
      rw [List.countP_eq_zero] at hq
      exact absurd rfl (hq _ h)
    simp only [M.bind, hc]
    cases o with
    | panic => exact ⟨ev, rfl, hd, by omega, hno⟩
    | hang => exact ⟨ev, rfl, hd, by omega, hno⟩
    | err e => exact ⟨ev, rfl, hd, by omega, hno⟩
    | ok n =>
      obtain ⟨rfl, _, _⟩ := connect_ok hc
      dsimp only
      obtain ⟨ev', g1, g2, g3, g4⟩ := Modest.doCall hk (Broker.apiVersions { config := buildConfig opts } {}) env (tr ++ ev)
        (by rw [dialed_append]; omega)
      have fin : ∃ ev'', tr ++ ev ++ ev' = tr ++ ev'' ∧ dialCount ev'' ≤ 1 ∧ requestCount ev'' ≤ 1 ∧
          ∀ n bytes r, .request n bytes r ∈ ev'' → k ≤ n := by
        refine ⟨ev ++ ev', by rw [List.append_assoc], ?_, ?_, ?_⟩
        · unfold dialCount at *; rw [List.countP_append]; omega
        · unfold requestCount at *; rw [List.countP_append]; omega
        · intro n bytes r h
          rcases List.mem_append.1 h with h | h
          · exact hno n bytes r h
          · exact g4 n bytes r h
      cases h2 : Client.doCall tr.dialed (Broker.apiVersions { config := buildConfig opts } {}) env (tr ++ ev) with
      | mk o2 tr2 =>
        rw [h2] at g1
        dsimp only at g1
        subst g1
        simp only [M.wrap, h2]
        cases o2 with
        | panic => exact fin
        | hang => exact fin
        | err e => exact fin
        | ok resp =>
          dsimp only
          split <;> exact fin

theorem Modest.dialLoop {α : Type} {k q : Nat} (opts : List Opt) (cb : Handle → M α) (zero : α)
    (hcb : ∀ h : Handle, k ≤ h.conn → Modest k 0 q (cb h)) :
    ∀ (addrs : List GoString) (last : Option Err), Modest k addrs.length (addrs.length + q) (Client.dialLoop opts cb zero addrs last) := by
  intro addrs
  induction addrs with
  | nil =>
    intro last
    cases last with
    | none => exact Modest.ok zero
    | some e => exact Modest.err e
  | cons a addrs ih =>
    intro last env tr hk
    obtain ⟨ev, h1, h2, h3, h4⟩ := Modest.newBroker (k := k) a opts env tr hk
    have join : ∀ ev' : List Event, dialCount ev' ≤ addrs.length → requestCount ev' ≤ addrs.length + q →
        (∀ n bytes r, .request n bytes r ∈ ev' → k ≤ n) →
        dialCount (ev ++ ev') ≤ (a :: addrs).length ∧ requestCount (ev ++ ev') ≤ (a :: addrs).length + q ∧
        ∀ n bytes r, .request n bytes r ∈ ev ++ ev' → k ≤ n := by
      intro ev' g2 g3 g4
      refine ⟨?_, ?_, ?_⟩
      · unfold dialCount at *; rw [List.countP_append, List.length_cons]; omega
      · unfold requestCount at *; rw [List.countP_append, List.length_cons]; omega
      · intro n bytes r h
        rcases List.mem_append.1 h with h | h
        · exact h4 n bytes r h
        · exact g4 n bytes r h
    unfold Client.dialLoop
    split
    · rename_i h tr1 hb
      rw [hb] at h1
      dsimp only at h1
      have hc : h.conn = tr.dialed := (newBroker_ok hb).conn
      obtain ⟨ev', g1, g2, g3, g4⟩ := hcb h (by omega) env tr1 (by rw [h1, dialed_append]; omega)
      exact ⟨ev ++ ev', by rw [g1, h1, List.append_assoc], join ev' (by omega) (by omega) g4⟩
    · rename_i e tr1 hb
      rw [hb] at h1
      dsimp only at h1
      obtain ⟨ev', g1, g2, g3, g4⟩ := ih (some e) env tr1 (by rw [h1, dialed_append]; omega)
      exact ⟨ev ++ ev', by rw [g1, h1, List.append_assoc], join ev' g2 g3 g4⟩
    all_goals
      rename_i tr1 hb
      rw [hb] at h1
      exact ⟨ev, h1, by rw [List.length_cons]; omega, by rw [List.length_cons]; omega, h4⟩

theorem Modest.dialNode {k : Nat} (c : Client) (m : MetadataResponse) (id : Int32) : Modest k 1 1 (c.dialNode m id) := by
  rcases dialNode_cases c m id with ⟨b, _, _, h⟩ | ⟨_, h⟩
  · rw [h]; exact Modest.newBroker _ _
  · rw [h]; exact Modest.err _

theorem Modest.metadata {k : Nat} (c : Client) (topics : List GoString) :
    Modest k c.bootstrap.length (c.bootstrap.length + 1) (c.metadata topics) :=
  Modest.dialLoop c.opts _ _ (fun _ hk => Modest.doCall hk _) _ _

/-- `Metadata` dials at most once for each bootstrap address, and sends at most one request for each and one more. -/
theorem C69_metadata (c : Client) (topics : List GoString) (env : Env) (tr : Trace) :
    ∃ ev, (c.metadata topics env tr).2 = tr ++ ev ∧ dialCount ev ≤ c.bootstrap.length ∧
      requestCount ev ≤ c.bootstrap.length + 1 ∧ ∀ n bytes r, .request n bytes r ∈ ev → (conns tr).length ≤ n := by
  rw [← dialed_conns]
  exact Modest.metadata c topics env tr (Nat.le_refl _)

/-- Every operation dials at most once for each bootstrap address and once more, and sends at most one request for each
and two more.  Nothing is sent on connections that were there before. -/
theorem C69_bounded {α : Type} (c : Client) (op : ClientOp α) (env : Env) (tr : Trace) :
    ∃ ev, (op.run c env tr).2 = tr ++ ev ∧ dialCount ev ≤ c.bootstrap.length + 1 ∧
      requestCount ev ≤ c.bootstrap.length + 2 ∧ ∀ n bytes r, .request n bytes r ∈ ev → (conns tr).length ≤ n := by
  rw [← dialed_conns]
  cases op with
  | metadata topics =>
    obtain ⟨ev, h1, h2, h3, h4⟩ := Modest.metadata c topics env tr (Nat.le_refl _)
    exact ⟨ev, h1, by omega, by omega, h4⟩
  | controller => exact (Modest.metadata c []).bind (fun m => Modest.dialNode c m m.ControllerId) env tr (Nat.le_refl _)
  | leader topic partition =>
    refine (Modest.metadata c [topic]).bind (d' := 1) (q' := 1) (fun m => ?_) env tr (Nat.le_refl _)
    split
    · exact Modest.err _
    · split
      · exact Modest.err _
      · exact Modest.dialNode c m _
  | coordinator group =>
    exact Modest.bind (Modest.dialLoop c.opts _ _ (fun _ hk => Modest.doCall hk _) _ _) (fun _ => Modest.newBroker _ _) env tr
      (Nat.le_refl _)

/-- The API whose method an operation calls. -/
def ClientOp.api {α : Type} : ClientOp α → Api
  | .coordinator _ => .FindCoordinator
  | _ => .Metadata

/-- Dialling, a request for versions, or a request of this API. -/
def Asks (a0 : Api) : Event → Prop
  | .dial .. => True
  | .request _ bytes _ => ∃ (b : Broker) (a : Api) (req : a.req.T) (id : Int32), (a = .ApiVersions ∨ a = a0) ∧ bytes = written b a req id
  | .close _ => False

theorem newBroker_asks (a0 : Api) (addr : GoString) (opts : List Opt) : Does (Asks a0) (newBroker addr opts) :=
  Does.newBroker (fun _ => trivial) fun _ id _ => ⟨{ config := buildConfig opts }, .ApiVersions, {}, id, .inl rfl, rfl⟩

theorem dialLoop_asks {α : Type} (a0 : Api) (opts : List Opt) (cb : Handle → M α) (zero : α)
    (hcb : ∀ h : Handle, Does (Asks a0) (cb h)) :
    ∀ (addrs : List GoString) (last : Option Err), Does (Asks a0) (dialLoop opts cb zero addrs last) := by
  intro addrs
  induction addrs with
  | nil =>
    intro last
    cases last with
    | none => exact Does.ok zero
    | some e => exact Does.err e
  | cons a addrs ih =>
    intro last env tr
    obtain ⟨ev, h1, h2⟩ := newBroker_asks a0 a opts env tr
    have join : ∀ ev' : List Event, (∀ e ∈ ev', Asks a0 e) → ∀ e ∈ ev ++ ev', Asks a0 e := by
      intro ev' h e he
      rcases List.mem_append.1 he with he | he
      · exact h2 e he
      · exact h e he
    unfold dialLoop
    split
    · rename_i h tr1 hb
      obtain ⟨ev', h3, h4⟩ := hcb h env tr1
      rw [hb] at h1
      dsimp only at h1
      exact ⟨ev ++ ev', by rw [h3, h1, List.append_assoc], join ev' h4⟩
    · rename_i e tr1 hb
      obtain ⟨ev', h3, h4⟩ := ih (some e) env tr1
      rw [hb] at h1
      dsimp only at h1
      exact ⟨ev ++ ev', by rw [h3, h1, List.append_assoc], join ev' h4⟩
    all_goals
      rename_i tr1 hb
      rw [hb] at h1
      exact ⟨ev, h1, h2⟩

theorem dialNode_asks (a0 : Api) (c : Client) (m : MetadataResponse) (id : Int32) : Does (Asks a0) (c.dialNode m id) := by
  rcases dialNode_cases c m id with ⟨b, _, _, h⟩ | ⟨_, h⟩
  · rw [h]; exact newBroker_asks _ _ _
  · rw [h]; exact Does.err _

theorem metadata_asks (c : Client) (topics : List GoString) : Does (Asks .Metadata) (c.metadata topics) :=
  dialLoop_asks _ c.opts _ _ (fun h => Does.doCall fun id _ => ⟨h.broker, .Metadata, _, id, .inr rfl, rfl⟩) _ _

/-- All requests are for versions or of the operation's API; as the frames say which API they are of (C19), brokers
see no others. -/
theorem C69_apis {α : Type} (c : Client) (op : ClientOp α) (env : Env) (tr : Trace) :
    ∃ ev, (op.run c env tr).2 = tr ++ ev ∧ ∀ n bytes r, .request n bytes r ∈ ev →
      ∃ (b : Broker) (a : Api) (req : a.req.T) (id : Int32), (a = .ApiVersions ∨ a = op.api) ∧ bytes = written b a req id := by
  have key : Does (Asks op.api) (op.run c) := by
    cases op with
    | metadata topics => exact metadata_asks c topics
    | controller => exact (metadata_asks c []).bind fun m => dialNode_asks _ c m _
    | leader topic partition =>
      refine (metadata_asks c [topic]).bind fun m => ?_
      split
      · exact Does.err _
      · split
        · exact Does.err _
        · exact dialNode_asks _ c m _
    | coordinator group =>
      exact Does.bind (dialLoop_asks _ c.opts _ _
        (fun h => Does.doCall fun id _ => ⟨h.broker, .FindCoordinator, _, id, .inr rfl, rfl⟩) _ _) fun resp => newBroker_asks _ _ _
  obtain ⟨ev, h1, h2⟩ := key env tr
  exact ⟨ev, h1, fun n bytes r h => h2 _ h⟩

/-- The bounds are reached: two bootstrap addresses, the second of which answers. -/
theorem modest_example : ∃ (c : Client) (env : Env), c.bootstrap.length = 2 ∧
    (let tr := (c.dialGroupCoordinator [] env []).2; dialCount tr = 3 ∧ requestCount tr = 4) := by
  refine ⟨newClient [addrA, addrB] [],
    { dial := fun _ _ => none
      reply := fun tr n bytes => if n = 0 then .lost ⟨0⟩ else (sampleNet (fun _ => true) 1 []
        (bytesOf (FindCoordinatorResponse.encode 1 { Host := goString "x", Port := 1 }))).reply tr n bytes }, rfl, ?_⟩
  decide +kernel

end Kafka.Props
