import Verif.Message.Wire
/-!
Specification of the request stream: the framing of requests and how a broker takes the
stream apart (https://kafka.apache.org/protocol#protocol_common), independent of the
client's code.
-/
namespace Kafka.Wire

/-- What follows the length of a request: request header (api key, api version, correlation id,
client id) and body. -/
def requestPayload (key version : Int16) (correlationId : Int32) (clientId : GoString)
    (body : List Byte) : List Byte :=
  int16 key ++ int16 version ++ int32 correlationId ++ string clientId ++ body

/-- Length prefix and payload. -/
def frame (payload : List Byte) : List Byte := int32 (Int32.ofNat payload.length) ++ payload

/-- The integer a broker reads from four bytes. -/
def readInt32 (a b c d : Byte) : Int := (Int32.ofBitVec (a ++ b ++ c ++ d)).toInt
def readInt16 (a b : Byte) : Int := (Int16.ofBitVec (a ++ b)).toInt

/-- How a broker splits the bytes of a connection into frames: `none` if they do not
consist of whole frames. -/
def splitFrames (bs : List Byte) : Option (List (List Byte)) :=
  match bs with
  | [] => some []
  | a :: b :: c :: d :: rest =>
    let n := readInt32 a b c d
    if n < 0 ∨ n > rest.length then none
    else (splitFrames (rest.drop n.toNat)).map (rest.take n.toNat :: ·)
  | _ => none
termination_by bs.length
decreasing_by simp; omega

/-- The fields a broker finds in a request payload: api key, api version, correlation id,
client id and body. -/
structure ParsedRequest where
  key : Int
  version : Int
  correlationId : Int
  clientId : GoString
  body : List Byte
deriving DecidableEq

/-- How a broker takes a request payload apart. -/
def parseRequest : List Byte → Option ParsedRequest
  | k1 :: k0 :: v1 :: v0 :: c3 :: c2 :: c1 :: c0 :: l1 :: l0 :: rest =>
    let n := readInt16 l1 l0
    if n < 0 ∨ n > rest.length then none
    else some
      { key := readInt16 k1 k0, version := readInt16 v1 v0,
        correlationId := readInt32 c3 c2 c1 c0,
        clientId := rest.take n.toNat, body := rest.drop n.toNat }
  | _ => none

end Kafka.Wire
