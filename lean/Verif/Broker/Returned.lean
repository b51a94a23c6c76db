import Verif.Gen.KeptApi
/-!
What the methods of `Broker` return: a response and an error.
-/
namespace Kafka

/-- The errors of `Conn.Do`: of the connection, before anything is decoded, or of the function that decodes the reply. -/
inductive DoErr where
  | conn
  | decode (e : DErr)
deriving DecidableEq, Repr

/-- gen.broker.go:66-1263: `var resp T; err := b.conn.Do(..., func(d) error { return (&resp).Decode(d, version) }); return
resp, err`.  The argument is the decoder that `Do` has the reply decoded with, `none` if it fails before; `none` is returned
if `Decode` panics.  (A reply to a request that could not be written in full is not considered.) -/
def Broker.returned (b : Broker) (a : Api) : Option Decoder → Option (a.resp.T × Option DoErr)
  | none => some (a.resp.zero, some .conn)
  | some d =>
    match a.keeps.decode (b.apiVersion.get a) a.resp.zero d with
    | .ok t _ => some (t, none)
    | .err e t _ => some (t, some (.decode e))
    | .panic => none

end Kafka
