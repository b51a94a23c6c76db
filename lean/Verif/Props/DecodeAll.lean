import Verif.Props.Decode
/-!
Property C60 without exceptions: what a method does with any bytes in place of a reply, at all versions.  The schemas are those of the
protocol, but that CreateTopics has the error code of the configuration, a tagged field in the protocol, as an ordinary one at version 5,
and that flexible versions are read in the old encoding.
-/
namespace Kafka.Props

open Protocol (Parsed Val Fields)
open Protocol.Ty

/-! ### The CreateTopics reply as the package has it -/

def CreatedTopic : Fields :=
  Protocol.field "Name" 0 string <| Protocol.field "ErrorCode" 0 int16 <| Protocol.nullable "ErrorMessage" 1 0 string <|
  Protocol.field "TopicConfigErrorCode" 5 int16 <| Protocol.field "NumPartitions" 5 int32 <| Protocol.field "ReplicationFactor" 5 int16 <|
  Protocol.nullable "Configs" 5 5 (array (struct Protocol.CreatableTopicConfigs)) .done
def Created : Fields :=
  Protocol.field "ThrottleTimeMs" 2 int32 <| Protocol.field "Topics" 0 (array (struct CreatedTopic)) .done

def createdTopicVal (t : Msg.CreatableTopicResult19) : Val :=
  .struct [("Name", .str (some t.Name)), ("ErrorCode", .int16 t.ErrorCode), ("ErrorMessage", .str (some t.ErrorMessage)),
    ("TopicConfigErrorCode", .int16 t.TopicConfigErrorCode), ("NumPartitions", .int32 t.NumPartitions),
    ("ReplicationFactor", .int16 t.ReplicationFactor), ("Configs", Protocol.ofStructs Msg.CreatableTopicConfigs19.val t.Configs)]
def createdVal (t : Msg.CreateTopicsResponse) : Val :=
  .struct [("ThrottleTimeMs", .int32 t.ThrottleTimeMs), ("Topics", Protocol.ofStructs createdTopicVal t.Topics)]

def createdTopicOf (v : Int16) (x : Val) (t0 : Msg.CreatableTopicResult19) : Msg.CreatableTopicResult19 :=
  { Msg.CreatableTopicResult19.of v x t0 with
    TopicConfigErrorCode := if v ≥ 5 then (x.get "TopicConfigErrorCode").toInt16 else t0.TopicConfigErrorCode }
def createdOf (v : Int16) (x : Val) (t0 : Msg.CreateTopicsResponse) : Msg.CreateTopicsResponse :=
  { ThrottleTimeMs := if v ≥ 2 then (x.get "ThrottleTimeMs").toInt32 else t0.ThrottleTimeMs,
    Topics := (x.get "Topics").toSliceOr (fun y => createdTopicOf v y {}) t0.Topics }

open Msg Protocol in
theorem createdTopic_parses {v : Int16} (hv : 0 ≤ v) (t0 : CreatableTopicResult19) :
    Parses (CreatableTopicResult19.decode v t0) ((Ty.struct CreatedTopic).parse v) (fun x => createdTopicOf v x t0) :=
  FParses.parses (fs := CreatedTopic)
    (FParses.field hv (set := fun (t : CreatableTopicResult19) x => { t with Name := x }) par_string <|
    FParses.field hv (set := fun (t : CreatableTopicResult19) x => { t with ErrorCode := x }) par_int16 <|
    FParses.optField (c := v ≥ 1) Iff.rfl (set := fun (t : CreatableTopicResult19) x => { t with ErrorMessage := x }) (·.ErrorMessage) (fun _ => rfl) par_string <|
    FParses.optField (c := v ≥ 5) Iff.rfl (set := fun (t : CreatableTopicResult19) x => { t with TopicConfigErrorCode := x }) (·.TopicConfigErrorCode) (fun _ => rfl) par_int16 <|
    FParses.optField (c := v ≥ 5) Iff.rfl (set := fun (t : CreatableTopicResult19) x => { t with NumPartitions := x }) (·.NumPartitions) (fun _ => rfl) par_int32 <|
    FParses.optField (c := v ≥ 5) Iff.rfl (set := fun (t : CreatableTopicResult19) x => { t with ReplicationFactor := x }) (·.ReplicationFactor) (fun _ => rfl) par_int16 <|
    FParses.optStructs (c := v ≥ 5) Iff.rfl (get := fun (t : CreatableTopicResult19) => t.Configs) (set := fun (t : CreatableTopicResult19) x => { t with Configs := x }) (fun _ => rfl) (CreatableTopicConfigs19.parses hv {}) <|
    FParses.done)
    (by simp only [CreatableTopicResult19.decode, Dec.andThen_assoc, Dec.andThen_nop]) (Fields.distinct_nodup _ (by decide +kernel)) (fun _ _ => rfl) t0

open Msg Protocol in
theorem created_parses {v : Int16} (hv : 0 ≤ v) (t0 : CreateTopicsResponse) :
    Parses (CreateTopicsResponse.decode v t0) ((Ty.struct Created).parse v) (fun x => createdOf v x t0) :=
  FParses.parses (fs := Created)
    (FParses.optField (c := v ≥ 2) Iff.rfl (set := fun (t : CreateTopicsResponse) x => { t with ThrottleTimeMs := x }) (·.ThrottleTimeMs) (fun _ => rfl) par_int32 <|
    FParses.structs hv (get := fun (t : CreateTopicsResponse) => t.Topics) (set := fun (t : CreateTopicsResponse) x => { t with Topics := x }) (createdTopic_parses hv {}) <|
    FParses.done)
    (by simp only [CreateTopicsResponse.decode, Dec.andThen_nop]) (Fields.distinct_nodup _ (by decide +kernel)) (fun _ _ => rfl) t0

open Msg Protocol in
theorem createdTopic_shown {v : Int16} (hv : 0 ≤ v) (x : Val) (h : CreatedTopic.Typed v x) :
    CreatedTopic.shows v x (createdTopicVal (createdTopicOf v x {})) = true :=
  Shows.all hv (show_string (Fields.Typed.head (h) hv)) <|
    Shows.all hv (show_int16 (Fields.Typed.head (Fields.Typed.tail h) hv)) <|
    Shows.since (fun s => .str (some s)) rfl (fun hc => show_string (Fields.Typed.head (Fields.Typed.tail (Fields.Typed.tail h)) hc)) rfl <|
    Shows.since (.int16) rfl (fun hc => show_int16 (Fields.Typed.head (Fields.Typed.tail (Fields.Typed.tail (Fields.Typed.tail h))) hc)) rfl <|
    Shows.since (.int32) rfl (fun hc => show_int32 (Fields.Typed.head (Fields.Typed.tail (Fields.Typed.tail (Fields.Typed.tail (Fields.Typed.tail h)))) hc)) rfl <|
    Shows.since (.int16) rfl (fun hc => show_int16 (Fields.Typed.head (Fields.Typed.tail (Fields.Typed.tail (Fields.Typed.tail (Fields.Typed.tail (Fields.Typed.tail h))))) hc)) rfl <|
    Shows.since (ofStructs CreatableTopicConfigs19.val) rfl (fun hc => show_structs (f := CreatableTopicConfigs19.val) (g := fun y => CreatableTopicConfigs19.of v y {}) (fun y hy => CreatableTopicConfigs19.shown hv y hy) (Fields.Typed.head (Fields.Typed.tail (Fields.Typed.tail (Fields.Typed.tail (Fields.Typed.tail (Fields.Typed.tail (Fields.Typed.tail h)))))) hc)) rfl <|
    rfl

open Msg Protocol in
theorem created_shown {v : Int16} (hv : 0 ≤ v) (x : Val) (h : Created.Typed v x) :
    Created.shows v x (createdVal (createdOf v x {})) = true :=
  Shows.since (.int32) rfl (fun hc => show_int32 (Fields.Typed.head (h) hc)) rfl <|
    Shows.all hv (show_structs (f := createdTopicVal) (g := fun y => createdTopicOf v y {}) (fun y hy => createdTopic_shown hv y hy) (Fields.Typed.head (Fields.Typed.tail h) hv)) <|
    rfl

/-! ### C60 -/

/-- The schema of a reply as the package has it, and a reply as a value of it. -/
def spokenReply : Api → Fields
  | .CreateTopics => Created
  | a => Protocol.response a
def spokenReplyVal : (a : Api) → a.resp.T → Val
  | .CreateTopics => createdVal
  | a => a.respVal
def spokenReplyOf : (a : Api) → Int16 → Val → a.resp.T
  | .CreateTopics => fun v x => createdOf v x {}
  | a => a.respOf

theorem spokenReply_distinct (a : Api) : (spokenReply a).distinct = true := by cases a <;> decide +kernel

theorem spokenReply_eq {a : Api} (h : a ≠ .CreateTopics) :
    spokenReply a = Protocol.response a ∧ spokenReplyVal a = a.respVal ∧ spokenReplyOf a = a.respOf := by
  cases a <;> first | exact ⟨rfl, rfl, rfl⟩ | exact absurd rfl h

theorem spokenReply_parses (a : Api) (v : Int16) (hv : 0 ≤ v) :
    Protocol.Parses (a.resp.decode v a.resp.zero) ((spokenReply a).message v) (spokenReplyOf a v) := by
  by_cases h : a = .CreateTopics
  · subst h; exact created_parses hv {}
  · rw [(spokenReply_eq h).1, (spokenReply_eq h).2.2]; exact a.resp_parses v hv fun h' => absurd h' h

theorem spokenReply_shown (a : Api) (v : Int16) (hv : 0 ≤ v) (x : Val) (hx : (spokenReply a).Typed v x) :
    (spokenReply a).shows v x (spokenReplyVal a (spokenReplyOf a v x)) = true := by
  by_cases h : a = .CreateTopics
  · subst h; exact created_shown hv x hx
  · rw [(spokenReply_eq h).1] at *; rw [(spokenReply_eq h).2.1, (spokenReply_eq h).2.2]; exact a.resp_shown v hv (fun h' => absurd h' h) x hx

/-- The outcome of a method on any bytes after the id of a reply, at every version. -/
theorem C60_all (b : Broker) (a : Api) (req : a.req.T) (d : Decoder) (hd : d.Valid) (hv : 0 ≤ version b a) :
    match (spokenReply a).message (version b a) d.rest with
    | .ok x n => ∃ r, (b.call a req).decode d = .ok r (d.skip n) ∧ n ≤ d.rest.length ∧
        (spokenReply a).shows (version b a) x (spokenReplyVal a r) = true
    | .short => ∃ d', (b.call a req).decode d = .err .shortBuffer d'
    | .bad => (b.call a req).decode d = .panic := by
  rw [C19_response]
  have h := spokenReply_parses a (version b a) hv d hd
  split
  · next x n e =>
    rw [e] at h
    refine ⟨_, h.2, h.1, spokenReply_shown a _ hv x ?_⟩
    have ht := (Protocol.Ty.struct (spokenReply a)).parse_typed (version b a)
      (by rw [Protocol.Ty.distinct]; exact spokenReply_distinct a) _ _ _ e
    rwa [Protocol.Ty.Typed] at ht
  · next e => rw [e] at h; exact h
  · next e => rw [e] at h; exact h

/-- The methods that a broker cannot crash, at all versions. -/
theorem C60_immune_all (b : Broker) (a : Api) (req : a.req.T) (hv : 0 ≤ version b a) (hmax : (version b a).toInt ≤ a.protocolMax) :
    (∀ d, d.Valid → (b.call a req).decode d ≠ .panic) ↔
      a ∈ [Api.UpdateMetadata, .Heartbeat, .ApiVersions, .InitProducerId, .AddOffsetsToTxn, .EndTxn,
        .RenewDelegationToken, .ExpireDelegationToken] ∨ a = .LeaveGroup ∧ version b a < 3 := by
  by_cases h : a = .CreateTopics
  · subst h
    refine iff_of_false (fun h => ?_) (by simp)
    have hs : (spokenReply .CreateTopics).safe (version b .CreateTopics) = false := by
      obtain ⟨n, hn, e⟩ := upTo hv hmax
      rw [e]
      have h : ∀ n ≤ Api.CreateTopics.protocolMax, (spokenReply .CreateTopics).safe (Int16.ofNat n) = false := by decide +kernel
      exact h n hn
    obtain ⟨bs, hl, hb⟩ := (Protocol.Ty.struct (spokenReply .CreateTopics)).unsafe_parse (version b .CreateTopics)
      (by rw [Protocol.Ty.safe]; exact hs)
    have hw : (spokenReply .CreateTopics).weight < 2000 := by decide +kernel
    rw [Protocol.Ty.weight] at hl
    have hd : (newDecoder bs bs.length).Valid := newDecoder_valid (by omega)
    refine h _ hd ?_
    rw [C19_response, parses_panic (spokenReply_parses .CreateTopics _ hv) _ hd, newDecoder_rest]
    have e := hb []
    rwa [List.append_nil] at e
  · exact C60_immune_list b a req hv hmax fun h' => absurd h' h

/-- A CreateTopics reply at version 5, with one topic. -/
example : (spokenReply .CreateTopics).message 5 ([0, 0, 0, 0] ++ [0, 0, 0, 1] ++ [0, 1, 116] ++ [0, 0] ++ [0xFF, 0xFF] ++ [0, 29] ++
      [0, 0, 0, 3] ++ [0, 1] ++ [0xFF, 0xFF, 0xFF, 0xFF]) =
    .ok (.struct [("ThrottleTimeMs", .int32 0), ("Topics", .arr (some [.struct [("Name", .str (some [116])), ("ErrorCode", .int16 0),
      ("ErrorMessage", .str none), ("TopicConfigErrorCode", .int16 29), ("NumPartitions", .int32 3), ("ReplicationFactor", .int16 1),
      ("Configs", .arr none)]]))]) 27 := rfl

end Kafka.Props
