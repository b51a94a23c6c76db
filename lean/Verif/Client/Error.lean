import Verif.Client.Model
/-!
Model of what a caller can do with an error: its text, `errors.Unwrap` and `errors.Is`.

The text of a network error is a parameter.  The errors of the network are taken to be other values than
those of this library and of the decoder.
-/
namespace Kafka.Client

/-- The text before `: %w`: gen.conn.go:66, gen.broker.go:49 and 53, client.go:110 and 115. -/
def Prefix.text : Prefix → GoString
  | .dial addr => goString "failed to dial broker, " ++ addr
  | .create => goString "unable to create broker"
  | .leader => goString "unable to dial leader"

/-- message/decoder.go:28 and `io.ErrShortBuffer` -/
def decodeText : DErr → GoString
  | .shortBuffer => goString "short buffer"
  | .varIntOverflow => goString "var int overflow"

/-- `err.Error()`: also gen.broker.go:1588 and client.go:62, 148 and 157. -/
def Err.text (net : NetErr → GoString) : Err → GoString
  | .net e => net e
  | .decode e => decodeText e
  | .negotiate e => goString "unable to negotiate version for api key, " ++ itoa e.key.toInt
  | .noNode id => goString "no such broker node, " ++ itoa id.toInt
  | .noTopic name => goString "no such topic, " ++ name
  | .noPartition partition name =>
    goString "unable to find partition, " ++ itoa partition.toInt ++ goString ", for topic, " ++ name
  | .wrap p e => p.text ++ goString ": " ++ e.text net

/-- `errors.Unwrap(err)`; `none` is nil.  (Of network errors nothing is known but that they are not one of the others.) -/
def Err.unwrap : Err → Option Err
  | .wrap _ e => some e
  | _ => none

/-- `errors.Is(err, target)`: the error or one it wraps is `target`.  The errors compared with are those that are
values: not the ones made by `fmt.Errorf`, each of which is a new one. -/
def Err.is : Err → Err → Bool
  | .wrap _ e, target => e.is target
  | e, target => e == target

/-- message/decoder.go:33-35 `IsInsufficientDataError` -/
def Err.isInsufficientData (e : Err) : Bool := e.is (.decode .shortBuffer)

end Kafka.Client
