import Verif.Client.Error
import Verif.Props.Returns
/-!
C76: errors tell what went wrong.
-/
namespace Kafka.Props

open Kafka.Client Kafka.Msg

/-- Specification: what an error is about, once everything `fmt.Errorf` put in front is taken away. -/
inductive About : Err → Err → Prop where
  | self {e : Err} : e.unwrap = none → About e e
  | inside {e e' x : Err} : e.unwrap = some e' → About e' x → About e x

theorem About.wrap {p : Prefix} {e x : Err} (h : About e x) : About (.wrap p e) x := .inside rfl h

/-- Every error is about one thing. -/
theorem C76_one (e : Err) : ∃ x, About e x ∧ (∀ y, About e y → y = x) ∧ x.unwrap = none := by
  induction e with
  | wrap p e ih =>
    obtain ⟨x, h1, h2, h3⟩ := ih
    refine ⟨x, h1.wrap, fun y hy => ?_, h3⟩
    cases hy with
    | self h => cases h
    | inside h h' => cases h; exact h2 y h'
  | _ =>
    refine ⟨_, .self rfl, fun y hy => ?_, rfl⟩
    cases hy with
    | self h => rfl
    | inside h _ => cases h

/-- `errors.Is` finds it, and nothing else. -/
theorem C76_is {e x : Err} (h : About e x) : ∀ y, y.unwrap = none → (e.is y = true ↔ y = x) := by
  induction h with
  | @self e he =>
    intro y _
    cases e with
    | wrap p e => cases he
    | _ => unfold Err.is; rw [beq_iff_eq]; exact eq_comm
  | @inside e e' x he _ ih =>
    intro y hy
    cases e with
    | wrap p e'' => cases he; exact ih y hy
    | _ => cases he

/-- The text of an error ends with the text of what it is about. -/
theorem C76_text {e x : Err} (h : About e x) (net : NetErr → GoString) : x.text net <:+ e.text net := by
  induction h with
  | self => exact List.suffix_refl _
  | @inside e e' x he _ ih =>
    cases e with
    | wrap p e'' => cases he; exact ih.trans (List.suffix_append _ _)
    | _ => cases he

/-- The requests the client's operations make. -/
inductive Lookup : {β : Type} → Call β → Prop where
  | versions (b : Broker) (req : ApiVersionsRequest) : Lookup (b.apiVersions req)
  | metadata (b : Broker) (req : MetadataRequest) : Lookup (b.metadata req)
  | coordinator (b : Broker) (req : FindCoordinatorRequest) : Lookup (b.findCoordinator req)

/-- The topics an operation asks for, and the node it looks for in the metadata. -/
inductive Wants : {α : Type} → ClientOp α → List GoString → MetadataResponse → Int32 → Prop where
  | controller (m : MetadataResponse) : Wants .controller [] m m.ControllerId
  | leader {topic : GoString} {partition : Int32} {m : MetadataResponse} (t : MetadataResponseTopic3) (p : MetadataResponsePartition3) :
      t ∈ m.Topics.elems → t.Name = topic → p ∈ t.Partitions.elems → p.PartitionIndex = partition →
      Wants (.leader topic partition) [topic] m p.LeaderId

/-- Specification: what has just gone wrong on the network. -/
inductive Failed (env : Env) : Trace → Err → Prop where
  /-- a dial failed -/
  | dial {t : Trace} {addr : GoString} {mode : DialMode} {e : NetErr} : env.dial t addr = some e →
      Failed env (t ++ [.dial addr mode (some e)]) (.net e)
  /-- a request could not be sent -/
  | lost {t : Trace} {n : Nat} {bytes : List Byte} {e : NetErr} : env.reply t n bytes = .lost e →
      Failed env (t ++ [.request n bytes (.lost e)]) (.net e)
  /-- a reply could not be decoded -/
  | reply {t : Trace} {n : Nat} {β : Type} {call : Call β} {id : Int32} {body stale : List Byte} {e : DErr} {d : Decoder} :
      Lookup call → env.reply t n (bytesOf (call.encode id)) = .frame body stale →
      call.decode { raw := Wire.int32 id ++ body ++ stale, length := (Wire.int32 id ++ body).length, offset := 4 } = .err e d →
      Failed env (t ++ [.request n (bytesOf (call.encode id)) (.frame body stale)]) (.decode e)
  /-- there is no version of some API that both sides know -/
  | versions {t : Trace} {n : Nat} {b : Broker} {id : Int32} {body stale : List Byte} {resp : ApiVersionsResponse}
      {d : Decoder} {e : NegotiateErr} :
      env.reply t n (bytesOf ((b.apiVersions {}).encode id)) = .frame body stale →
      (b.apiVersions {}).decode { raw := Wire.int32 id ++ body ++ stale, length := (Wire.int32 id ++ body).length, offset := 4 } = .ok resp d →
      Negotiates resp.ApiKeys (.error e) →
      Failed env (t ++ [.request n (bytesOf ((b.apiVersions {}).encode id)) (.frame body stale)]) (.negotiate e)

/-- Specification: what is missing from the metadata, which came last. -/
inductive Missing (c : Client) (env : Env) (tr : Trace) : {α : Type} → ClientOp α → Trace → Err → Prop where
  | node {α : Type} {op : ClientOp α} {topics : List GoString} {m : MetadataResponse} {tr' : Trace} {id : Int32} :
      c.metadata topics env tr = (.ok m, tr') → Wants op topics m id → (∀ b ∈ m.Brokers.elems, b.NodeId ≠ id) →
      Missing c env tr op tr' (.noNode id)
  | topic {topic : GoString} {partition : Int32} {m : MetadataResponse} {tr' : Trace} :
      c.metadata [topic] env tr = (.ok m, tr') → (∀ t ∈ m.Topics.elems, t.Name ≠ topic) →
      Missing c env tr (.leader topic partition) tr' (.noTopic topic)
  | partition {topic : GoString} {partition : Int32} {m : MetadataResponse} {tr' : Trace} {t : MetadataResponseTopic3} :
      c.metadata [topic] env tr = (.ok m, tr') → t ∈ m.Topics.elems → t.Name = topic →
      (∀ p ∈ t.Partitions.elems, p.PartitionIndex ≠ partition) →
      Missing c env tr (.leader topic partition) tr' (.noPartition partition topic)

/-- If the last thing was a dial, the error says so, and says where. -/
def SaysWhere (tr : Trace) (e : Err) : Prop :=
  ∀ t addr mode x, tr = t ++ [.dial addr mode (some x)] → e = .wrap (.dial addr) (.net x)

/-- The error returned is about what has just gone wrong on the network. -/
def Tells {α : Type} (m : M α) : Prop :=
  ∀ env tr tr' e, m env tr = (.err e, tr') → (∃ x, About e x ∧ Failed env tr' x) ∧ SaysWhere tr' e

theorem saysWhere_request (t : Trace) (n : Nat) (bytes : List Byte) (r : Reply) (e : Err) :
    SaysWhere (t ++ [.request n bytes r]) e := by
  intro t' addr mode x ht
  have := congrArg List.getLast? ht
  simp at this

theorem doCall_last {α : Type} (n : Nat) (call : Call α) (env : Env) (tr : Trace) :
    ∃ bytes r, (Client.doCall n call env tr).2 = tr ++ [.request n bytes r] := by
  unfold Client.doCall
  dsimp only
  repeat' split
  all_goals exact ⟨_, _, rfl⟩

theorem Tells.doCall {α : Type} (n : Nat) {call : Call α} (hl : Lookup call) : Tells (doCall n call) := by
  intro env tr tr' e h
  unfold Client.doCall at h
  dsimp only at h
  split at h
  · rename_i hr
    cases h
    exact ⟨⟨_, .self rfl, by rw [hr]; exact .lost hr⟩, saysWhere_request _ _ _ _ _⟩
  · cases h
  · cases h
  · rename_i body stale hr
    split at h
    · cases h
    · rename_i x d hd
      cases h
      exact ⟨⟨_, .self rfl, by rw [hr]; exact .reply hl hr hd⟩, saysWhere_request _ _ _ _ _⟩
    · cases h

theorem Tells.connect (addr : GoString) (opts : List Opt) : Tells (connect addr opts) := by
  intro env tr tr' e h
  unfold Client.connect at h
  split at h
  · cases h
  · split at h
    · rename_i x hx
      cases h
      refine ⟨⟨_, .wrap (.self rfl), .dial hx⟩, fun t addr' mode y ht => ?_⟩
      have := congrArg List.getLast? ht
      simp at this
      obtain ⟨rfl, _, rfl⟩ := this
      rfl
    · cases h

theorem Tells.bind {α β : Type} {m : M α} {f : α → M β} (hm : Tells m) (hf : ∀ a, Tells (f a)) : Tells (m.bind f) := by
  intro env tr tr' e h
  unfold M.bind at h
  split at h
  · exact hf _ _ _ _ _ h
  · rename_i x tr1 hx; cases h; exact hm _ _ _ _ hx
  · cases h
  · cases h

theorem Tells.ok {α : Type} (a : α) : Tells (M.ok a) := by
  intro env tr tr' e h; cases h

/-- What `NewBroker` returns. -/
theorem C76_newBroker (addr : GoString) (opts : List Opt) : Tells (newBroker addr opts) := by
  unfold newBroker
  refine (Tells.connect addr opts).bind fun n => ?_
  dsimp only
  intro env tr tr' e h
  unfold M.bind at h
  split at h
  · rename_i resp tr1 hd
    obtain ⟨body, stale, d, h1, h2, h3⟩ := doCall_replied (wrap_ok.1 hd)
    dsimp only at h
    split at h
    · cases h
    · rename_i x hn
      cases h
      subst h2
      refine ⟨⟨_, .wrap (.self rfl), .versions h1 h3 (((negotiateFuel_exact _).1 _).1 hn)⟩, saysWhere_request _ _ _ _ _⟩
    · cases h
  · rename_i x tr1 hd
    cases h
    obtain ⟨y, rfl, hy⟩ := wrap_err hd
    obtain ⟨⟨z, hz, hf⟩, _⟩ := Tells.doCall n (Lookup.versions _ _) _ _ _ _ hy
    refine ⟨⟨z, hz.wrap, hf⟩, ?_⟩
    obtain ⟨bytes, r, hr⟩ := doCall_last n (Broker.apiVersions { config := buildConfig opts } {}) env tr
    rw [hy] at hr
    dsimp only at hr
    rw [hr]
    exact saysWhere_request _ _ _ _ _
  · cases h
  · cases h

theorem Tells.dialLoop {α : Type} (opts : List Opt) (cb : Handle → M α) (zero : α) (hcb : ∀ h, Tells (cb h)) :
    ∀ (addrs : List GoString) (last : Option Err) env tr tr' e,
      Client.dialLoop opts cb zero addrs last env tr = (.err e, tr') → (addrs = [] → last = none) →
      (∃ x, About e x ∧ Failed env tr' x) ∧ SaysWhere tr' e := by
  intro addrs
  induction addrs with
  | nil =>
    intro last env tr tr' e h hl
    rw [hl rfl] at h
    cases h
  | cons a addrs ih =>
    intro last env tr tr' e h _
    unfold Client.dialLoop at h
    split at h
    · exact hcb _ _ _ _ _ h
    · rename_i x tr1 hb
      cases addrs with
      | nil =>
        cases h
        exact C76_newBroker a opts _ _ _ _ hb
      | cons b bs => exact ih _ _ _ _ _ h (by intro h; cases h)
    · cases h
    · cases h

theorem Tells.metadata (c : Client) (topics : List GoString) : Tells (c.metadata topics) := fun env tr tr' e h =>
  Tells.dialLoop c.opts _ _ (fun h => Tells.doCall h.conn (Lookup.metadata _ _)) _ _ env tr tr' e h fun _ => rfl

theorem dialNode_tells {c : Client} {m : MetadataResponse} {id : Int32} {env : Env} {tr tr' : Trace} {e : Err}
    (h : c.dialNode m id env tr = (.err e, tr')) :
    ((∃ x, About e x ∧ Failed env tr' x) ∧ SaysWhere tr' e) ∨
    (tr' = tr ∧ e = .noNode id ∧ ∀ b ∈ m.Brokers.elems, b.NodeId ≠ id) := by
  rcases dialNode_cases c m id with ⟨b, _, _, hb⟩ | ⟨hn, hb⟩
  · rw [hb] at h; exact .inl (C76_newBroker _ _ _ _ _ _ h)
  · rw [hb] at h; cases h; exact .inr ⟨rfl, rfl, hn⟩

/-- What holds of every operation of the client: the error it returns is about what has just gone wrong on the network, or
about what is missing from the metadata. -/
theorem C76_operation {α : Type} (c : Client) (op : ClientOp α) (env : Env) (tr tr' : Trace) (e : Err)
    (h : op.run c env tr = (.err e, tr')) :
    ∃ x, About e x ∧ ((Failed env tr' x ∧ SaysWhere tr' e) ∨ Missing c env tr op tr' x) := by
  have done : (∃ x, About e x ∧ Failed env tr' x) ∧ SaysWhere tr' e →
      ∃ x, About e x ∧ ((Failed env tr' x ∧ SaysWhere tr' e) ∨ Missing c env tr op tr' x) := by
    rintro ⟨⟨x, h1, h2⟩, h3⟩
    exact ⟨x, h1, .inl ⟨h2, h3⟩⟩
  cases op with
  | metadata topics => exact done (Tells.metadata c topics env tr tr' e h)
  | controller =>
    simp only [ClientOp.run, Client.dialController, M.bind] at h
    split at h
    · rename_i m tr1 hm
      rcases dialNode_tells h with h' | ⟨rfl, rfl, hn⟩
      · exact done h'
      · exact ⟨_, .self rfl, .inr (.node hm (.controller m) hn)⟩
    · rename_i x tr1 hx
      cases h
      exact done (Tells.metadata c [] env tr _ _ hx)
    · cases h
    · cases h
  | leader topic partition =>
    simp only [ClientOp.run, Client.dialLeader, M.bind] at h
    split at h
    · rename_i m tr1 hm
      cases ht : findTopic m topic with
      | error x =>
        rw [ht] at h
        cases h
        unfold findTopic at ht
        split at ht
        · cases ht
        · rename_i hf
          cases ht
          exact ⟨_, .wrap (.self rfl), .inr (.topic hm fun t ht => by simpa using List.find?_eq_none.1 hf t ht)⟩
      | ok t =>
        rw [ht] at h
        dsimp only at h
        unfold findTopic at ht
        split at ht
        · rename_i t' hf
          cases ht
          have ht1 := List.mem_of_find?_eq_some hf
          have ht2 : t.Name = topic := by simpa using List.find?_some hf
          cases hp : findPartition t partition with
          | error x =>
            rw [hp] at h
            cases h
            unfold findPartition at hp
            split at hp
            · cases hp
            · rename_i hq
              cases hp
              rw [ht2]
              exact ⟨_, .wrap (.self rfl), .inr (.partition hm ht1 ht2 fun p hp => by
                simpa using List.find?_eq_none.1 hq p hp)⟩
          | ok p =>
            rw [hp] at h
            unfold findPartition at hp
            split at hp
            · rename_i p' hq
              cases hp
              rcases dialNode_tells h with h' | ⟨rfl, rfl, hn⟩
              · exact done h'
              · exact ⟨_, .self rfl, .inr (.node hm (.leader t p ht1 ht2 (List.mem_of_find?_eq_some hq)
                  (by simpa using List.find?_some hq)) hn)⟩
            · cases hp
        · cases ht
    · rename_i x tr1 hx
      cases h
      exact done (Tells.metadata c [topic] env tr _ _ hx)
    · cases h
    · cases h
  | coordinator group =>
    simp only [ClientOp.run, Client.dialGroupCoordinator, Client.dialCoordinator, M.bind] at h
    split at h
    · exact done (C76_newBroker _ _ _ _ _ _ h)
    · rename_i x tr1 hx
      cases h
      exact done (Tells.dialLoop c.opts _ _ (fun h => Tells.doCall h.conn (Lookup.coordinator _ _)) _ _ env tr _ _ hx
        fun _ => rfl)
    · cases h
    · cases h

/-- And of a method of a broker: the error is that of `Flush` or of the decoder, as it is. -/
theorem C76_method {α : Type} (n : Nat) (call : Call α) (env : Env) (tr tr' : Trace) (e : Err)
    (h : doCall n call env tr = (.err e, tr')) :
    (∃ x, e = .net x ∧ env.reply tr n (bytesOf (call.encode (Int32.ofNat (tr.sent n + 1)))) = .lost x) ∨
    (∃ x body stale d, e = .decode x ∧
      env.reply tr n (bytesOf (call.encode (Int32.ofNat (tr.sent n + 1)))) = .frame body stale ∧
      call.decode { raw := Wire.int32 (Int32.ofNat (tr.sent n + 1)) ++ body ++ stale,
                    length := (Wire.int32 (Int32.ofNat (tr.sent n + 1)) ++ body).length, offset := 4 } = .err x d) := by
  unfold doCall at h
  dsimp only at h
  split at h
  · rename_i hr; cases h; exact .inl ⟨_, rfl, hr⟩
  · cases h
  · cases h
  · rename_i body stale hr
    split at h
    · cases h
    · rename_i x d hd; cases h; exact .inr ⟨_, body, stale, d, rfl, hr, hd⟩
    · cases h

/-- `IsInsufficientDataError` says whether a reply was too short, also of the errors of operations. -/
theorem C76_insufficient {e x : Err} (h : About e x) : e.isInsufficientData = true ↔ x = .decode .shortBuffer := by
  unfold Err.isInsufficientData
  rw [C76_is h _ rfl]
  exact eq_comm

/-- Non-trivial instance: both bootstrap addresses are down. -/
example : ∃ e tr', ClientOp.run (newClient [addrA, addrB] []) .controller (sampleNet (fun _ => false) 1 [] []) [] = (.err e, tr') ∧
    e.text (fun _ => goString "connection refused") = goString "failed to dial broker, b:2: connection refused" ∧
    e.is (.net ⟨0⟩) = true ∧ e.isInsufficientData = false := ⟨_, _, rfl, by decide, rfl, rfl⟩

/-- Non-trivial instance: the reply to the request for versions is empty. -/
example : ∃ e tr', newBroker addrA [] { dial := fun _ _ => none, reply := fun _ _ _ => .frame [] [] } [] = (.err e, tr') ∧
    e.text (fun _ => []) = goString "unable to create broker: short buffer" ∧ e.isInsufficientData = true :=
  ⟨_, _, rfl, by decide, rfl⟩

/-- Non-trivial instance: no such topic. -/
example : (match (ClientOp.run (newClient [addrA] []) (.leader (goString "u") 0)
      (sampleNet (fun _ => true) 1 (bytesOf (MetadataResponse.encode 1 sampleMetadata)) []) []).1 with
    | .err e => e.text (fun _ => [])
    | _ => []) = goString "unable to dial leader: no such topic, u" := by decide +kernel

end Kafka.Props
