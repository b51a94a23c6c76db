import Verif.Props.Asking
import Verif.Props.Output
import Verif.Props.Writer
/-!
Concrete cases that meet the hypotheses of theorems of Props/Client, Props/Conn, Props/Asking and Props/Writer.
-/
namespace Kafka.Props

open Kafka.Client Kafka.Msg Conn

/-- `C39_partial` and `C45_metadata`: the first address is down, the second answers, and the metadata is returned. -/
example : ∃ h tr1 m tr', (newClient [addrA, addrB] []).bootstrap ≠ [] ∧
    FirstUp (sampleNet (· == addrB) 1 (bytesOf (MetadataResponse.encode 1 sampleMetadata)) []) [] [] [addrA, addrB] h tr1 ∧
    (newClient [addrA, addrB] []).metadata [] (sampleNet (· == addrB) 1 (bytesOf (MetadataResponse.encode 1 sampleMetadata)) []) [] =
      (.ok m, tr') ∧ m.ControllerId = 1 ∧ openConns tr' = [0] := by
  have hk : (match (newClient [addrA, addrB] []).metadata []
      (sampleNet (· == addrB) 1 (bytesOf (MetadataResponse.encode 1 sampleMetadata)) []) [] with
    | (.ok m, tr') => decide (m.ControllerId = 1 ∧ openConns tr' = [0])
    | _ => false) = true := by decide +kernel
  split at hk
  · rename_i m tr' e
    obtain ⟨h, tr1, hf⟩ := C39_partial (c := newClient [addrA, addrB] []) (by simp [newClient]) e
    exact ⟨h, tr1, m, tr', by simp [newClient], hf, e, (of_decide_eq_true hk).1, (of_decide_eq_true hk).2⟩
  · cases hk

/-- `C46_partial`: a broker is made, and uses Metadata at version 1 and FindCoordinator at version 1. -/
example : ∃ h tr', newBroker addrA [] (sampleNet (fun _ => true) 1 [] []) [] = (.ok h, tr') ∧
    h.broker.apiVersion.get .Metadata = 1 ∧ h.broker.apiVersion.get .FindCoordinator = 1 := by
  have hk : (match newBroker addrA [] (sampleNet (fun _ => true) 1 [] []) [] with
    | (.ok h, _) => decide (h.broker.apiVersion.get .Metadata = 1 ∧ h.broker.apiVersion.get .FindCoordinator = 1)
    | _ => false) = true := by decide +kernel
  split at hk
  · rename_i h tr' e
    exact ⟨h, tr', e, of_decide_eq_true hk⟩
  · cases hk

/-- `C46_ignored`: a network on which every reply is an error code. -/
example : ∃ env : Env, env.dial [] addrA = none ∧ dialMode (buildConfig []) ≠ .nilDialer ∧
    ∀ tr n bytes, env.reply tr n bytes = .frame (bytesOf (ApiVersionsResponse.encode 0 { ErrorCode := 35 })) [] :=
  ⟨{ dial := fun _ _ => none, reply := fun _ _ _ => .frame (bytesOf (ApiVersionsResponse.encode 0 { ErrorCode := 35 })) [] },
    rfl, by decide, fun _ _ _ => rfl⟩

/-- `C71_flexible`: a broker of which Metadata is used at version 9. -/
example : ∃ h tr1, newBroker addrA [] (sampleNet (fun _ => true) 9 [] []) [] = (.ok h, tr1) ∧ version h.broker .Metadata = 9 := by
  have hk : (match newBroker addrA [] (sampleNet (fun _ => true) 9 [] []) [] with
    | (.ok h, _) => decide (version h.broker .Metadata = 9)
    | _ => false) = true := by decide +kernel
  split at hk
  · rename_i h tr' e
    exact ⟨h, tr', e, of_decide_eq_true hk⟩
  · cases hk

/-- `C47_meaning_partial`: an OffsetFetch request at version 3, which can be read. -/
example : ∃ (b : Broker) (req : Msg.OffsetFetchRequest) (x : Protocol.Val), version b .OffsetFetch = 3 ∧
    (Api.OffsetFetch).reqLayout.Fits 3 req ∧ (Api.OffsetFetch).reqFull 3 req ∧ b.config.clientID.length < 2 ^ 15 ∧
    Means .OffsetFetch (written b .OffsetFetch req 1) 3 x := by
  have hfit : (Api.OffsetFetch).reqLayout.Fits 3 ({ GroupId := goString "group", Topics := some [{ Name := goString "topic", PartitionIndexes := some [1, 2] }] } : Msg.OffsetFetchRequest) := by
    constructor
    · simp [FitsString, goString]
    · refine ⟨by simp [FitsSlice, Slice.len, Slice.elems], ?_⟩
      intro x hx
      simp only [Slice.elems, Option.getD_some, List.mem_singleton] at hx
      subst hx
      constructor
      · simp [FitsString, goString]
      · simp [FitsSlice, Slice.len, Slice.elems]
  have hfull : (Api.OffsetFetch).reqFull 3 ({ GroupId := goString "group", Topics := some [{ Name := goString "topic", PartitionIndexes := some [1, 2] }] } : Msg.OffsetFetchRequest) := by
    constructor
    intro x hx
    simp only [Slice.elems, Option.getD_some, List.mem_singleton] at hx
    subst hx
    exact ⟨by simp [Slice.NotNil]⟩
  have h := C47_partial { apiVersion := { OffsetFetch := 3 }, config := { clientID := goString "client" } } .OffsetFetch _ 1
    (by decide) hfit (by decide) (by simp) (by simp) hfull
  exact ⟨_, _, _, rfl, hfit, hfull, by decide, by decide, by decide, by simp, h.1, 1, goString "client", by decide, h.2⟩

/-- `C38_partial`: a peer that announces more than the buffer holds. -/
example : ∃ s, Conn.Reach small Conn.Any s ∧ s.crashed = true ∧ s.received = Wire.int32 9 ++ List.replicate 9 0 := by
  obtain ⟨s, h1, h2, h3, _⟩ := C38_oversize_fails (P := small) (by decide) (by decide) 9 (by decide) (List.replicate 9 0) rfl
  exact ⟨s, h1, h2, h3⟩

/-- `C59_machine`: a new connection, on which a call encodes a string. -/
example : ∃ (s : Conn.State) (p : Prog) (w : ConnEncoder), Conn.Reach small Conn.Any s ∧
    p.Is (·.putString (goString "topic")) ∧ Shows w s ∧
    (s.calls 0).pc = .encode ∧ (s.calls 0).job.frame (s.calls 0).id = bytesOf (·.putString (goString "topic")) ∧
    s.crashed = false ∧ s.rawClosed = false := by
  have h : ∃ s, Conn.run small ([.start 0 ⟨fun _ => bytesOf (·.putString (goString "topic")), fun _ => false⟩] ++
      List.replicate 5 (.call 0)) (Conn.init small) = some s ∧ s.wire = [] ∧ s.werr = none ∧
      (s.calls 0).pc = .encode ∧ (s.calls 0).job.frame (s.calls 0).id = bytesOf (·.putString (goString "topic")) ∧
      s.crashed = false ∧ s.rawClosed = false := ⟨_, rfl, rfl, rfl, rfl, rfl, rfl, rfl⟩
  obtain ⟨s, h1, h2, h3, h4, h5, h6, h7⟩ := h
  refine ⟨s, .seq (.guard (.chunk false [0, 5])) (.guard (.chunk true (goString "topic"))), .new ⟨[], 0, fun _ => none⟩,
    Conn.Reach.run .init _ (fun _ _ _ => trivial) h1, fun e => ?_, ⟨by rw [h2]; rfl, fun _ => ⟨rfl, rfl, rfl⟩, fun x hx => ?_⟩, h4, h5, h6, h7⟩
  · show e.putString _ = _
    exact guarded_swap (e.putInt16 5) (goString "topic")
  · rw [h3] at hx; cases hx

end Kafka.Props
