import Verif.Props.Client
/-!
C81: errors that a broker reports about the topic, partition or group that was looked up.
-/
namespace Kafka.Props

open Kafka.Client Kafka.Msg

/-- Specification: the metadata reports an error about the topic or about the partition. -/
def ReportsLeader (m : MetadataResponse) (topic : GoString) (partition : Int32) (code : Int16) : Prop :=
  ∃ t ∈ m.Topics.elems, t.Name = topic ∧
    (t.ErrorCode = code ∨ (t.ErrorCode = 0 ∧ ∃ p ∈ t.Partitions.elems, p.PartitionIndex = partition ∧ p.ErrorCode = code))

/-- The full claim for `DialLeader`: when the metadata reports an error about the topic or partition, it returns an error from which
the code can be told. -/
def C81_leader_statement : Prop :=
  ∃ told : Err → Option Int16,
    ∀ (c : Client) (topic : GoString) (partition : Int32) (env : Env) (tr tr1 : Trace) (m : MetadataResponse) (code : Int16),
      c.metadata [topic] env tr = (.ok m, tr1) → Distinct m → code ≠ 0 → ReportsLeader m topic partition code →
      ∃ e tr2, c.dialLeader topic partition env tr = (.err e, tr2) ∧ told e = some code

/-- The full claim for `DialGroupCoordinator`, in the same way. -/
def C81_coordinator_statement : Prop :=
  ∃ told : Err → Option Int16,
    ∀ (c : Client) (group : GoString) (env : Env) (tr tr1 tr2 : Trace) (h : Handle) (resp : FindCoordinatorResponse),
      FirstUp env c.opts tr c.bootstrap h tr1 →
      doCall h.conn (h.broker.findCoordinator { Key := group, KeyType := 0 }) env tr1 = (.ok resp, tr2) → resp.ErrorCode ≠ 0 →
      ∃ e tr3, c.dialGroupCoordinator group env tr = (.err e, tr3) ∧ told e = some resp.ErrorCode

/-! ### Error codes are not looked at -/

/-- A partition without its error code. -/
def uncodedPartition (p : MetadataResponsePartition3) : MetadataResponsePartition3 := { p with ErrorCode := 0 }

/-- A topic without error codes. -/
def uncodedTopic (t : MetadataResponseTopic3) : MetadataResponseTopic3 :=
  { t with ErrorCode := 0, Partitions := some (t.Partitions.elems.map uncodedPartition) }

/-- The two replies say the same, but for error codes. -/
def SameButCodes (m m' : MetadataResponse) : Prop :=
  m.Brokers.elems = m'.Brokers.elems ∧ m.Topics.elems.map uncodedTopic = m'.Topics.elems.map uncodedTopic

theorem find_uncoded {α : Type} {p : α → Bool} {f : α → α} (hp : ∀ x, p (f x) = p x) :
    ∀ {xs ys : List α}, xs.map f = ys.map f → (xs.find? p).map f = (ys.find? p).map f
  | [], [], _ => rfl
  | [], _ :: _, h => by cases h
  | _ :: _, [], h => by cases h
  | x :: xs, y :: ys, h => by
    simp only [List.map_cons, List.cons.injEq] at h
    have h1 : p x = p y := by rw [← hp x, ← hp y, h.1]
    simp only [List.find?_cons, ← h1]
    cases p x with
    | true => simp [h.1]
    | false => exact find_uncoded hp h.2

theorem findTopic_uncoded {m m' : MetadataResponse} (h : SameButCodes m m') (topic : GoString) :
    (findTopic m topic).map uncodedTopic = (findTopic m' topic).map uncodedTopic := by
  have := find_uncoded (p := fun t : MetadataResponseTopic3 => t.Name == topic) (f := uncodedTopic) (fun _ => rfl) h.2
  unfold findTopic
  revert this
  cases m.Topics.elems.find? _ <;> cases m'.Topics.elems.find? _ <;> intro this <;>
    simp_all [Except.map]

theorem findPartition_uncoded {t t' : MetadataResponseTopic3} (h : uncodedTopic t = uncodedTopic t') (partition : Int32) :
    (findPartition t partition).map uncodedPartition = (findPartition t' partition).map uncodedPartition := by
  have h1 : t.Partitions.elems.map uncodedPartition = t'.Partitions.elems.map uncodedPartition := by
    exact congrArg (fun t => t.Partitions.elems) h
  have h2 : t.Name = t'.Name := congrArg (fun t => t.Name) h
  have := find_uncoded (p := fun p : MetadataResponsePartition3 => p.PartitionIndex == partition) (f := uncodedPartition)
    (fun _ => rfl) h1
  unfold findPartition
  revert this
  rw [h2]
  cases t.Partitions.elems.find? _ <;> cases t'.Partitions.elems.find? _ <;> intro this <;>
    simp_all [Except.map]

/-- **C81.**  Error codes make no difference to `DialLeader`: two replies that differ in nothing else lead to the same
address, or to the same error. -/
theorem C81_leader_blind {c : Client} {topic : GoString} {partition : Int32} {env env' : Env} {tr tr1 tr' tr1' : Trace}
    {m m' : MetadataResponse} (hm : c.metadata [topic] env tr = (.ok m, tr1))
    (hm' : c.metadata [topic] env' tr' = (.ok m', tr1')) (h : SameButCodes m m') :
    (∃ addr, c.dialLeader topic partition env tr = newBroker addr c.opts env tr1 ∧
      c.dialLeader topic partition env' tr' = newBroker addr c.opts env' tr1') ∨
    ∃ e, c.dialLeader topic partition env tr = (.err e, tr1) ∧ c.dialLeader topic partition env' tr' = (.err e, tr1') := by
  unfold Client.dialLeader
  simp only [M.bind, hm, hm']
  have h1 := findTopic_uncoded h topic
  cases ht : findTopic m topic with
  | error e =>
    cases ht' : findTopic m' topic with
    | error e' =>
      simp only [ht, ht', Except.map, Except.error.injEq] at h1
      exact .inr ⟨.wrap .leader e, rfl, by rw [h1]; rfl⟩
    | ok t' => simp [ht, ht', Except.map] at h1
  | ok t =>
    cases ht' : findTopic m' topic with
    | error e' => simp [ht, ht', Except.map] at h1
    | ok t' =>
      simp only [ht, ht', Except.map, Except.ok.injEq] at h1
      have h2 := findPartition_uncoded h1 partition
      dsimp only
      cases hp : findPartition t partition with
      | error e =>
        cases hp' : findPartition t' partition with
        | error e' =>
          simp only [hp, hp', Except.map, Except.error.injEq] at h2
          exact .inr ⟨.wrap .leader e, rfl, by rw [h2]; rfl⟩
        | ok p' => simp [hp, hp', Except.map] at h2
      | ok p =>
        cases hp' : findPartition t' partition with
        | error e' => simp [hp, hp', Except.map] at h2
        | ok p' =>
          simp only [hp, hp', Except.map, Except.ok.injEq] at h2
          have h3 : p.LeaderId = p'.LeaderId := congrArg (fun p => p.LeaderId) h2
          dsimp only
          unfold Client.dialNode
          rw [h.1, h3]
          cases m'.Brokers.elems.find? (fun b => b.NodeId == p'.LeaderId) with
          | none => exact .inr ⟨_, rfl, rfl⟩
          | some b => exact .inl ⟨_, rfl, rfl⟩

/-- The same of `DialGroupCoordinator`: only host and port count. -/
theorem C81_coordinator_blind {c : Client} {group : GoString} {env env' : Env} {tr tr1 tr2 tr' tr1' tr2' : Trace} {h h' : Handle}
    {resp resp' : FindCoordinatorResponse} (hf : FirstUp env c.opts tr c.bootstrap h tr1)
    (hf' : FirstUp env' c.opts tr' c.bootstrap h' tr1')
    (hd : doCall h.conn (h.broker.findCoordinator { Key := group, KeyType := 0 }) env tr1 = (.ok resp, tr2))
    (hd' : doCall h'.conn (h'.broker.findCoordinator { Key := group, KeyType := 0 }) env' tr1' = (.ok resp', tr2'))
    (hh : resp.Host = resp'.Host) (hp : resp.Port = resp'.Port) :
    ∃ addr, c.dialGroupCoordinator group env tr = newBroker addr c.opts env tr2 ∧
      c.dialGroupCoordinator group env' tr' = newBroker addr c.opts env' tr2' :=
  ⟨hostPort resp.Host resp.Port, C40_coordinator_partial hf hd, by rw [hh, hp]; exact C40_coordinator_partial hf' hd'⟩

/-! ### The claim fails -/

deriving instance DecidableEq for MetadataResponseBroker3, MetadataResponsePartition3, MetadataResponseTopic3

/-- A broker that says LEADER_NOT_AVAILABLE (5), or another error, of partition 4. -/
def coded (code : Int16) : MetadataResponse :=
  { Brokers := sampleBrokers, ControllerId := 1,
    Topics := some [{ Name := goString "t", Partitions := some [{ ErrorCode := code, PartitionIndex := 4, LeaderId := -1 }] }] }

def codedNet (code : Int16) : Env := sampleNet (fun _ => true) 1 (bytesOf (MetadataResponse.encode 1 (coded code))) []

/-- Whether `DialLeader` returns the given error. -/
def leaderErr (code : Int16) (e : Err) : Bool :=
  match (newClient [addrA] []).dialLeader (goString "t") 4 (codedNet code) [] with
  | (.err e', _) => decide (e = e')
  | _ => false

/-- The metadata as the client gets it. -/
def codedSeen (code : Int16) : Option MetadataResponse :=
  match (newClient [addrA] []).metadata [goString "t"] (codedNet code) [] with
  | (.ok m, _) => some m
  | _ => none

theorem leaderErr_eq {code : Int16} {e : Err} (h : leaderErr code e = true) :
    ∃ tr, (newClient [addrA] []).dialLeader (goString "t") 4 (codedNet code) [] = (.err e, tr) := by
  unfold leaderErr at h
  split at h
  · rename_i e' tr he
    exact ⟨tr, by rw [he, of_decide_eq_true h]⟩
  · cases h

/-- The leader's claim is false: whatever the code is, the error is the same, about a node with id -1 that does not exist. -/
theorem C81_leader_fails : ¬C81_leader_statement := by
  rintro ⟨told, h⟩
  have key : ∀ code : Int16, code ≠ 0 → (codedSeen code).map (fun m => (m.Brokers, m.Topics)) = some ((coded code).Brokers, (coded code).Topics) →
      leaderErr code (.noNode (-1)) = true → told (.noNode (-1)) = some code := by
    intro code hc hs he
    obtain ⟨tr2, he⟩ := leaderErr_eq he
    obtain ⟨m, hm, hmt⟩ := Option.map_eq_some_iff.1 hs
    simp only [Prod.mk.injEq] at hmt
    unfold codedSeen at hm
    split at hm
    · rename_i m' tr1 e1
      cases hm
      have hD : Distinct m := by
        refine ⟨?_, ?_, ?_⟩
        · rw [hmt.2]; simp [coded, Slice.elems]
        · rw [hmt.2]; simp [coded, Slice.elems]
        · rw [hmt.1]; simp only [coded, sampleBrokers, Slice.elems, Option.getD_some]
          intro b hb b' hb' e
          simp only [List.mem_cons, List.not_mem_nil, or_false] at hb hb'
          rcases hb with rfl | rfl <;> rcases hb' with rfl | rfl <;> first | rfl | exact absurd e (by decide)
      have hR : ReportsLeader m (goString "t") 4 code := by
        unfold ReportsLeader
        rw [hmt.2]
        exact ⟨_, .head _, rfl, .inr ⟨rfl, _, .head _, rfl, rfl⟩⟩
      obtain ⟨e, tr3, h1, h2⟩ := h _ _ 4 _ [] tr1 m code e1 hD hc hR
      rw [he] at h1
      cases h1
      exact h2
    · cases hm
  have h5 := key 5 (by decide) (by decide +kernel) (by decide +kernel)
  have h9 := key 9 (by decide) (by decide +kernel) (by decide +kernel)
  rw [h5] at h9
  exact absurd h9 (by decide)

/-- A broker that knows no coordinator reports why, and the client dials ":-1". -/
def codedCoordinator (code : Int16) : Env :=
  sampleNet (· == addrA) 0 [] (bytesOf (FindCoordinatorResponse.encode 1 { ErrorCode := code, NodeId := -1, Port := -1 }))

theorem C81_coordinator_fails : ¬C81_coordinator_statement := by
  rintro ⟨told, h⟩
  have key : ∀ code : Int16, code ≠ 0 →
      (match newBroker addrA [] (codedCoordinator code) [] with
      | (.ok h, tr1) =>
        match doCall h.conn (h.broker.findCoordinator { Key := goString "g", KeyType := 0 }) (codedCoordinator code) tr1 with
        | (.ok resp, _) => decide (resp.ErrorCode = code)
        | _ => false
      | _ => false) = true →
      (match (newClient [addrA] []).dialGroupCoordinator (goString "g") (codedCoordinator code) [] with
      | (.err e, _) => decide (e = .wrap (.dial (goString ":-1")) (.net ⟨0⟩))
      | _ => false) = true → told (.wrap (.dial (goString ":-1")) (.net ⟨0⟩)) = some code := by
    intro code hc hk he
    split at hk
    · rename_i hh tr1 e1
      split at hk
      · rename_i resp tr2 e2
        have hr := of_decide_eq_true hk
        split at he
        · rename_i e tr3 e3
          obtain ⟨e', tr4, h1, h2⟩ := h (newClient [addrA] []) (goString "g") _ [] tr1 tr2 hh resp (.here e1) e2 (by rw [hr]; exact hc)
          rw [e3] at h1
          cases h1
          rw [of_decide_eq_true he, hr] at h2
          exact h2
        · cases he
      · cases hk
    · cases hk
  have h15 := key 15 (by decide) (by decide +kernel) (by decide +kernel)
  have h30 := key 30 (by decide) (by decide +kernel) (by decide +kernel)
  rw [h15] at h30
  exact absurd h30 (by decide)

/-- What is left: `DialLeader` returns an error, if not the right one, when the metadata names no leader along with the error code,
as brokers do for unknown topics and partitions without a leader.  Missing: the code, and replies that do name one. -/
theorem C81_leader_partial {c : Client} {topic : GoString} {partition : Int32} {env : Env} {tr tr1 : Trace} {m : MetadataResponse}
    (hm : c.metadata [topic] env tr = (.ok m, tr1))
    (hn : ∀ t ∈ m.Topics.elems, t.Name = topic → ∀ p ∈ t.Partitions.elems, p.PartitionIndex = partition →
      ∀ b ∈ m.Brokers.elems, b.NodeId ≠ p.LeaderId) :
    ∃ e, c.dialLeader topic partition env tr = (.err e, tr1) :=
  C40_leader_none hm fun _ _ ⟨t, ht, h1, p, hp, h2, b, hb, h3, _⟩ => hn t ht h1 p hp h2 b hb h3

/-- Non-trivial instance of `SameButCodes` and of the hypotheses of `C81_leader_partial`: the replies of `C81_leader_fails`. -/
example : SameButCodes (coded 5) (coded 9) ∧ ReportsLeader (coded 5) (goString "t") 4 5 ∧ ReportsLeader (coded 9) (goString "t") 4 9 ∧
    (∀ t ∈ (coded 5).Topics.elems, ∀ p ∈ t.Partitions.elems, ∀ b ∈ (coded 5).Brokers.elems, b.NodeId ≠ p.LeaderId) ∧
    (codedSeen 5).isSome = true :=
  ⟨⟨rfl, rfl⟩, ⟨_, .head _, rfl, .inr ⟨rfl, _, .head _, rfl, rfl⟩⟩, ⟨_, .head _, rfl, .inr ⟨rfl, _, .head _, rfl, rfl⟩⟩,
    by decide +kernel, by decide +kernel⟩

end Kafka.Props
