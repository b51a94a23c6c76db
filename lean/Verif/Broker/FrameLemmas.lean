import Verif.Broker.Frame
import Verif.Gen.Api
/-!
The frames written by the API methods.
-/
namespace Kafka

open Msg

/-- What an API method does, in terms of its key, its version and its message types. -/
def stdCall (key version : Int16) (Q R : MsgType) (clientID : GoString) (req : Q.T) : Call R.T :=
  { encode := fun correlationID =>
      let hdr : RequestHeader :=
        { RequestApiKey := key, RequestApiVersion := version,
          CorrelationId := correlationID, ClientId := clientID }
      let size := RequestHeader.size 2 hdr + Q.size version req
      (·.putInt32 size) ;; RequestHeader.encode 2 hdr ;; Q.encode version req
    decode := R.decode version R.zero }

theorem call_eq (b : Broker) (a : Api) (req : a.req.T) :
    b.call a req = stdCall a.key (b.apiVersion.get a) a.req a.resp b.config.clientID req := by
  cases a <;> rfl

/-- The request header of a call. -/
def requestHeader (key version : Int16) (id : Int32) (client : GoString) : RequestHeader :=
  { RequestApiKey := key, RequestApiVersion := version, CorrelationId := id, ClientId := client }

theorem header_wire (key version : Int16) (id : Int32) (client : GoString) :
    RequestHeader.wire 2 (requestHeader key version id client) =
    Wire.int16 key ++ Wire.int16 version ++ Wire.int32 id ++ Wire.string client := rfl

theorem stdCall_emits {key version : Int16} {Q R : MsgType} {L : Layout Q} (hQ : Lawful Q L)
    (client : GoString) (req : Q.T) (id : Int32) :
    Emits ((stdCall key version Q R client req).encode id)
      (Wire.frame (Wire.requestPayload key version id client (L.wire version req))) := by
  have h1 := RequestHeader.lawful.sized 2 (requestHeader key version id client)
  have h2 := hQ.sized version req
  have h3 := Sized.append h1 h2
  unfold Sized at h3
  have h4 := ((emits_int32 (RequestHeader.type.size 2 (requestHeader key version id client) +
      Q.size version req)).comp (RequestHeader.lawful.emits 2 (requestHeader key version id client))
      ).comp (hQ.emits version req)
  rw [List.append_assoc] at h4
  refine Emits.congr (f := (stdCall key version Q R client req).encode id) h4 ?_
  rw [h3]
  rfl

theorem call_emits (b : Broker) (a : Api) (req : a.req.T) (id : Int32) :
    Emits ((b.call a req).encode id) (Wire.frame (Wire.requestPayload a.key (b.apiVersion.get a) id
      b.config.clientID (a.reqLayout.wire (b.apiVersion.get a) req))) := by
  rw [call_eq]
  exact stdCall_emits a.req_lawful _ _ _

theorem readInt32_int32 (i : Int32) : ∃ a b c d, Wire.int32 i = [a, b, c, d] ∧
    Wire.readInt32 a b c d = i.toInt := by
  rw [wire_int32]
  refine ⟨_, _, _, _, rfl, ?_⟩
  have h := beUint32_be32 i.toBitVec []
  simp only [be32, List.cons_append, beUint32, Option.some.injEq] at h
  unfold Wire.readInt32
  rw [h, Int32.ofBitVec_toBitVec]

theorem readInt16_int16 (i : Int16) : ∃ a b, Wire.int16 i = [a, b] ∧
    Wire.readInt16 a b = i.toInt := by
  rw [wire_int16]
  refine ⟨_, _, rfl, ?_⟩
  have h := beUint16_be16 i.toBitVec []
  simp only [be16, List.cons_append, beUint16, Option.some.injEq] at h
  unfold Wire.readInt16
  rw [h, Int16.ofBitVec_toBitVec]

theorem splitFrames_frame {p : List Byte} (h : p.length < 2 ^ 31) (rest : List Byte) :
    Wire.splitFrames (Wire.frame p ++ rest) = (Wire.splitFrames rest).map (p :: ·) := by
  unfold Wire.frame
  obtain ⟨a, b, c, d, h1, h2⟩ := readInt32_int32 (Int32.ofNat p.length)
  rw [h1]
  simp only [List.cons_append, List.nil_append]
  rw [Wire.splitFrames]
  rw [h2, ofNat_toInt32 h]
  simp only [List.length_append]
  rw [if_neg (by omega)]
  simp

theorem splitFrames_flatMap {ps : List (List Byte)} (h : ∀ p ∈ ps, p.length < 2 ^ 31) :
    Wire.splitFrames (ps.flatMap Wire.frame) = some ps := by
  induction ps with
  | nil => simp [Wire.splitFrames]
  | cons p ps ih =>
    rw [List.flatMap_cons, splitFrames_frame (h p (by simp)),
      ih (fun q hq => h q (List.mem_cons_of_mem _ hq))]
    rfl

theorem parse_payload (key version : Int16) (id : Int32) {client : GoString}
    (h : FitsString client) (body : List Byte) :
    Wire.parseRequest (Wire.requestPayload key version id client body) =
      some { key := key.toInt, version := version.toInt, correlationId := id.toInt,
             clientId := client, body := body } := by
  unfold Wire.requestPayload Wire.string
  obtain ⟨k1, k0, hk1, hk2⟩ := readInt16_int16 key
  obtain ⟨v1, v0, hv1, hv2⟩ := readInt16_int16 version
  obtain ⟨c3, c2, c1, c0, hc1, hc2⟩ := readInt32_int32 id
  obtain ⟨l1, l0, hl1, hl2⟩ := readInt16_int16 (Int16.ofNat client.length)
  rw [hk1, hv1, hc1, hl1]
  simp only [List.cons_append, List.nil_append, Wire.parseRequest]
  rw [hl2, ofNat_toInt16 h]
  simp only [List.length_append]
  rw [if_neg (by omega)]
  simp [hk2, hv2, hc2]

end Kafka
