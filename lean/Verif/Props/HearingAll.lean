import Verif.Props.Hearing
/-!
Property C96 without exceptions: what `Decode` of a request does with any bytes, at all versions.  The schemas are those of the
protocol, but that OffsetCommit has no commit timestamp at version 1 and that flexible versions are read in the old encoding: this
is where the package departs from the protocol, and there is nothing else.
-/
namespace Kafka.Props

open Protocol (Parsed Val Fields flexible requestHeaderVersion)
open Protocol.Ty

/-! ### The OffsetCommit request as the package has it -/

def CommitPartition : Fields :=
  Protocol.field "PartitionIndex" 0 int32 <| Protocol.field "CommittedOffset" 0 int64 <|
  Protocol.field "CommittedLeaderEpoch" 6 int32 <| Protocol.nullable "CommittedMetadata" 0 0 string .done
def CommitTopic : Fields :=
  Protocol.field "Name" 0 string <| Protocol.field "Partitions" 0 (array (struct CommitPartition)) .done
def Commit : Fields :=
  Protocol.field "GroupId" 0 string <| Protocol.field "GenerationId" 1 int32 <| Protocol.field "MemberId" 1 string <|
  Protocol.nullable "GroupInstanceId" 7 7 string <| Protocol.until_ "RetentionTimeMs" 2 4 int64 <|
  Protocol.field "Topics" 0 (array (struct CommitTopic)) .done

/-- The schema of a request as the package has it. -/
def spoken (a : Api) : Fields := if a = .OffsetCommit then Commit else Protocol.request a

/-- At version 1 it is not the schema of the protocol. -/
theorem spoken_ne : spoken .OffsetCommit ≠ Protocol.request .OffsetCommit := by
  intro h
  have := congrArg (fun fs : Fields => fs.weight) h
  revert this
  decide +kernel

open Msg Protocol in
theorem commitPartition_parses {v : Int16} (hv : 0 ≤ v) (t0 : OffsetCommitRequestPartition8) :
    Parses (OffsetCommitRequestPartition8.decode v t0) ((Ty.struct CommitPartition).parse v) (fun x => OffsetCommitRequestPartition8.of v x t0) :=
  FParses.parses (fs := CommitPartition)
    (FParses.field hv (set := fun (t : OffsetCommitRequestPartition8) x => { t with PartitionIndex := x }) par_int32 <|
    FParses.field hv (set := fun (t : OffsetCommitRequestPartition8) x => { t with CommittedOffset := x }) par_int64 <|
    FParses.optField (c := v ≥ 6) Iff.rfl (set := fun (t : OffsetCommitRequestPartition8) x => { t with CommittedLeaderEpoch := x }) (·.CommittedLeaderEpoch) (fun _ => rfl) par_int32 <|
    FParses.field hv (set := fun (t : OffsetCommitRequestPartition8) x => { t with CommittedMetadata := x }) par_string <|
    FParses.done)
    (by simp only [OffsetCommitRequestPartition8.decode, Dec.andThen_assoc, Dec.andThen_nop]) (Fields.distinct_nodup _ (by decide +kernel)) (fun _ _ => rfl) t0

open Msg Protocol in
theorem commitTopic_parses {v : Int16} (hv : 0 ≤ v) (t0 : OffsetCommitRequestTopic8) :
    Parses (OffsetCommitRequestTopic8.decode v t0) ((Ty.struct CommitTopic).parse v) (fun x => OffsetCommitRequestTopic8.of v x t0) :=
  FParses.parses (fs := CommitTopic)
    (FParses.field hv (set := fun (t : OffsetCommitRequestTopic8) x => { t with Name := x }) par_string <|
    FParses.structs hv (get := fun (t : OffsetCommitRequestTopic8) => t.Partitions) (set := fun (t : OffsetCommitRequestTopic8) x => { t with Partitions := x }) (commitPartition_parses hv {}) <|
    FParses.done)
    (by simp only [OffsetCommitRequestTopic8.decode, Dec.andThen_nop]) (Fields.distinct_nodup _ (by decide +kernel)) (fun _ _ => rfl) t0

open Msg Protocol in
theorem commit_parses {v : Int16} (hv : 0 ≤ v) (t0 : OffsetCommitRequest) :
    Parses (OffsetCommitRequest.decode v t0) ((Ty.struct Commit).parse v) (fun x => OffsetCommitRequest.of v x t0) :=
  FParses.parses (fs := Commit)
    (FParses.field hv (set := fun (t : OffsetCommitRequest) x => { t with GroupId := x }) par_string <|
    FParses.optField (c := v ≥ 1) Iff.rfl (set := fun (t : OffsetCommitRequest) x => { t with GenerationId := x }) (·.GenerationId) (fun _ => rfl) par_int32 <|
    FParses.optField (c := v ≥ 1) Iff.rfl (set := fun (t : OffsetCommitRequest) x => { t with MemberId := x }) (·.MemberId) (fun _ => rfl) par_string <|
    FParses.optField (c := v ≥ 7) Iff.rfl (set := fun (t : OffsetCommitRequest) x => { t with GroupInstanceId := x }) (·.GroupInstanceId) (fun _ => rfl) par_string <|
    FParses.optField (c := v ≥ 2 ∧ v ≤ 4) Iff.rfl (set := fun (t : OffsetCommitRequest) x => { t with RetentionTimeMs := x }) (·.RetentionTimeMs) (fun _ => rfl) par_int64 <|
    FParses.structs hv (get := fun (t : OffsetCommitRequest) => t.Topics) (set := fun (t : OffsetCommitRequest) x => { t with Topics := x }) (commitTopic_parses hv {}) <|
    FParses.done)
    (by simp only [OffsetCommitRequest.decode, Dec.andThen_assoc, Dec.andThen_nop]) (Fields.distinct_nodup _ (by decide +kernel)) (fun _ _ => rfl) t0

open Msg Protocol in
theorem commitPartition_shown {v : Int16} (hv : 0 ≤ v) (x : Val) (h : CommitPartition.Typed v x) :
    CommitPartition.shows v x (OffsetCommitRequestPartition8.val (OffsetCommitRequestPartition8.of v x {})) = true :=
  Shows.all hv (show_int32 (Fields.Typed.head (h) hv)) <|
    Shows.all hv (show_int64 (Fields.Typed.head (Fields.Typed.tail h) hv)) <|
    Shows.since (.int32) rfl (fun hc => show_int32 (Fields.Typed.head (Fields.Typed.tail (Fields.Typed.tail h)) hc)) rfl <|
    Shows.all hv (show_string (Fields.Typed.head (Fields.Typed.tail (Fields.Typed.tail (Fields.Typed.tail h))) hv)) <|
    rfl

open Msg Protocol in
theorem commitTopic_shown {v : Int16} (hv : 0 ≤ v) (x : Val) (h : CommitTopic.Typed v x) :
    CommitTopic.shows v x (OffsetCommitRequestTopic8.val (OffsetCommitRequestTopic8.of v x {})) = true :=
  Shows.all hv (show_string (Fields.Typed.head (h) hv)) <|
    Shows.all hv (show_structs (f := OffsetCommitRequestPartition8.val) (g := fun y => OffsetCommitRequestPartition8.of v y {}) (fun y hy => commitPartition_shown hv y hy) (Fields.Typed.head (Fields.Typed.tail h) hv)) <|
    rfl

open Msg Protocol in
theorem commit_shown {v : Int16} (hv : 0 ≤ v) (x : Val) (h : Commit.Typed v x) :
    Commit.shows v x (OffsetCommitRequest.val (OffsetCommitRequest.of v x {})) = true :=
  Shows.all hv (show_string (Fields.Typed.head (h) hv)) <|
    Shows.since (.int32) rfl (fun hc => show_int32 (Fields.Typed.head (Fields.Typed.tail h) hc)) rfl <|
    Shows.since (fun s => .str (some s)) rfl (fun hc => show_string (Fields.Typed.head (Fields.Typed.tail (Fields.Typed.tail h)) hc)) rfl <|
    Shows.since (fun s => .str (some s)) rfl (fun hc => show_string (Fields.Typed.head (Fields.Typed.tail (Fields.Typed.tail (Fields.Typed.tail h))) hc)) rfl <|
    Shows.between (.int64) rfl (fun hc => show_int64 (Fields.Typed.head (Fields.Typed.tail (Fields.Typed.tail (Fields.Typed.tail (Fields.Typed.tail h)))) hc)) rfl <|
    Shows.all hv (show_structs (f := OffsetCommitRequestTopic8.val) (g := fun y => OffsetCommitRequestTopic8.of v y {}) (fun y hy => commitTopic_shown hv y hy) (Fields.Typed.head (Fields.Typed.tail (Fields.Typed.tail (Fields.Typed.tail (Fields.Typed.tail (Fields.Typed.tail h))))) hv)) <|
    rfl

theorem spoken_parses (a : Api) (v : Int16) (hv : 0 ≤ v) :
    Protocol.Parses (a.req.decode v a.req.zero) ((spoken a).message v) (a.reqOf v) := by
  by_cases h : a = .OffsetCommit
  · subst h; exact commit_parses hv {}
  · rw [spoken, if_neg h]; exact a.req_parses v hv fun h' => absurd h' h

theorem asked_val (a : Api) (h : a ≠ .OffsetCommit) : a.reqAsked = a.reqVal := by
  cases a <;> first | rfl | exact absurd rfl h

theorem spoken_shown (a : Api) (v : Int16) (hv : 0 ≤ v) (x : Val) (hx : (spoken a).Typed v x) :
    (spoken a).shows v x (a.reqVal (a.reqOf v x)) = true := by
  by_cases h : a = .OffsetCommit
  · subst h; exact commit_shown hv x hx
  · rw [spoken, if_neg h] at *; rw [← asked_val a h]; exact a.req_shown v hv (fun h' => absurd h' h) x hx

theorem spoken_distinct (a : Api) : (spoken a).distinct = true := by cases a <;> decide +kernel

/-! ### C96 -/

/-- What the bytes are as a header and a request, read with the schemas of the package. -/
def spokenOnWire (a : Api) (v : Int16) (bs : List Byte) : Parsed (Val × Val) :=
  (Protocol.RequestHeader.message (requestHeaderVersion a v) bs).next bs fun h bs =>
    ((spoken a).message v bs).next bs fun x _ => Parsed.value (h, x)

theorem spokenOnWire_eq (a : Api) (h : a ≠ .OffsetCommit) : spokenOnWire a = onWire a := by
  funext v bs
  rw [spokenOnWire, onWire, spoken, if_neg h]

theorem header_nonneg (a : Api) (v : Int16) : 0 ≤ requestHeaderVersion a v := by
  unfold requestHeaderVersion
  split
  · decide
  · split <;> decide

theorem spokenOnWire_ok {a : Api} {v : Int16} {bs : List Byte} {h x : Val} {n : Nat} (e : spokenOnWire a v bs = .ok (h, x) n) :
    ∃ m k, Protocol.RequestHeader.message (requestHeaderVersion a v) bs = .ok h m ∧
      (spoken a).message v (bs.drop m) = .ok x k ∧ n = m + k := by
  unfold spokenOnWire at e
  cases e1 : Protocol.RequestHeader.message (requestHeaderVersion a v) bs with
  | short => rw [e1] at e; simp [Parsed.next] at e
  | bad => rw [e1] at e; simp [Parsed.next] at e
  | ok h' m =>
    rw [e1] at e
    cases e2 : (spoken a).message v (bs.drop m) with
    | short => simp [Parsed.next, e2] at e
    | bad => simp [Parsed.next, e2] at e
    | ok x' k =>
      simp only [Parsed.next, e2, Parsed.value, Parsed.ok.injEq, Prod.mk.injEq] at e
      obtain ⟨⟨rfl, rfl⟩, rfl⟩ := e
      exact ⟨m, k, rfl, e2, by omega⟩

/-- The outcome of reading any bytes as a request, for all 48 APIs and all versions, flexible or not. -/
theorem C96_all (a : Api) (v : Int16) (d : Decoder) (hv : 0 ≤ v) (hd : d.Valid) :
    match spokenOnWire a v d.rest with
    | .ok (h, x) n => ∃ t r, reading a v d = .ok (t, r) (d.skip n) ∧ n ≤ d.rest.length ∧
        Protocol.RequestHeader.shows (requestHeaderVersion a v) h t.val = true ∧ (spoken a).shows v x (a.reqVal r) = true
    | .short => ∃ d', reading a v d = .err .shortBuffer d'
    | .bad => reading a v d = .panic := by
  have hw := header_nonneg a v
  have hp : Protocol.Parses (reading a v) (spokenOnWire a v)
      (fun p => (Msg.RequestHeader.of (requestHeaderVersion a v) p.1 {}, a.reqOf v p.2)) :=
    Protocol.Parses.bind (Msg.RequestHeader.parses hw {}) fun _ => Parses.value (spoken_parses a v hv) _ _ _ fun _ => rfl
  have h := hp d hd
  split
  · next hh x n e =>
    rw [e] at h
    obtain ⟨m, k, e1, e2, _⟩ := spokenOnWire_ok e
    refine ⟨_, _, h.2, h.1, Msg.RequestHeader.shown hw hh ?_, spoken_shown a v hv x ?_⟩
    · have ht := (Protocol.Ty.struct Protocol.RequestHeader).parse_typed (requestHeaderVersion a v)
        (by rw [Protocol.Ty.distinct]; decide +kernel) _ _ _ e1
      rwa [Protocol.Ty.Typed] at ht
    · have ht := (Protocol.Ty.struct (spoken a)).parse_typed v
        (by rw [Protocol.Ty.distinct]; exact spoken_distinct a) _ _ _ e2
      rwa [Protocol.Ty.Typed] at ht
  · next e => rw [e] at h; exact h
  · next e => rw [e] at h; exact h

/-- So the package ignores the flexible encoding: at a flexible version it reads with the schema of that version, in the encoding of the versions
before. -/
theorem C96_flexible (a : Api) (v : Int16) (d : Decoder) (hv : 0 ≤ v) (hd : d.Valid) (hcommit : a ≠ .OffsetCommit) :
    Follows a v d := by
  have h := C96_all a v d hv hd
  rw [spokenOnWire_eq a hcommit, spoken, if_neg hcommit, ← asked_val a hcommit] at h
  exact h

/-- Of all requests at all versions the only one that no bytes can make `Decode` panic on is ControlledShutdown version 0. -/
theorem C96_immune_all (a : Api) (v : Int16) (hv : 0 ≤ v) :
    (∀ d, d.Valid → reading a v d ≠ .panic) ↔ a = .ControlledShutdown ∧ v = 0 := by
  constructor
  · intro h
    by_cases h0 : a = .ControlledShutdown ∧ v = 0
    · exact h0
    have hd : (newDecoder [0, 0, 0, 0, 0, 0, 0, 0, 0xFF, 0xFE] 10).Valid := newDecoder_valid (bs := [0, 0, 0, 0, 0, 0, 0, 0, 0xFF, 0xFE]) (by decide)
    have hp := Msg.RequestHeader.parses (header_nonneg a v) {} _ hd
    have e : (Protocol.Ty.struct Protocol.RequestHeader).parse (requestHeaderVersion a v)
        (newDecoder [0, 0, 0, 0, 0, 0, 0, 0, 0xFF, 0xFE] 10).rest = .bad := by
      have h12 : requestHeaderVersion a v = 1 ∨ requestHeaderVersion a v = 2 := by
        unfold requestHeaderVersion
        rw [if_neg h0]
        split <;> simp
      rcases h12 with h | h <;> rw [h] <;> rfl
    rw [e] at hp
    exact absurd (bind_panic hp) (h _ hd)
  · rintro ⟨rfl, rfl⟩
    exact (C96_immune .ControlledShutdown 0 (by decide) (by decide) (by decide)).2 ⟨rfl, rfl⟩

/-! Examples: the bytes of `commitCut`, which the package takes for a request; a Heartbeat request at the flexible version 4, in the
old encoding. -/

example : spokenOnWire .OffsetCommit 1 commitCut =
    .ok (.struct [("RequestApiKey", .int16 8), ("RequestApiVersion", .int16 1), ("CorrelationId", .int32 1), ("ClientId", .str (some []))],
      .struct [("GroupId", .str (some [])), ("GenerationId", .int32 0), ("MemberId", .str (some [])),
        ("Topics", .arr (some [.struct [("Name", .str (some [116])), ("Partitions", .arr (some [.struct [("PartitionIndex", .int32 0),
          ("CommittedOffset", .int64 5), ("CommittedMetadata", .str (some []))]]))]]))]) 43 := rfl
example : flexible .Heartbeat 4 = true ∧ spokenOnWire .Heartbeat 4
      ([0, 12, 0, 4, 0, 0, 0, 3, 0, 1, 99] ++ [0, 1, 103, 0, 0, 0, 7, 0, 1, 109, 0xFF, 0xFF]) =
    .ok (.struct [("RequestApiKey", .int16 12), ("RequestApiVersion", .int16 4), ("CorrelationId", .int32 3), ("ClientId", .str (some [99]))],
      .struct [("GroupId", .str (some [103])), ("GenerationId", .int32 7), ("MemberId", .str (some [109])), ("GroupInstanceId", .str none)]) 23 :=
  ⟨by decide, rfl⟩

end Kafka.Props
