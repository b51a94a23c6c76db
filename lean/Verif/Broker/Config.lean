import Verif.Base.Go
/-!
Model of `gen.option.go` and of `dial` in `gen.conn.go`.
-/
namespace Kafka

/-- A `net.Dialer` value: the zero value `&net.Dialer{}` or one made by the caller. -/
inductive Dialer where
  | zero
  | user (id : Nat)
deriving DecidableEq, Repr

/-- A `*tls.Config` made by the caller, identified by a number. -/
abbrev TlsConfig := Nat

/-- The bytes of an ASCII string literal. -/
def goString (s : String) : GoString := s.toList.map fun c => BitVec.ofNat 8 c.toNat

/-- gen.option.go:24 `defaultClientID` -/
def defaultClientID : GoString := goString "github.com/savaki/kafka"

/-- gen.option.go:26-30 `config`; `none` is the nil pointer. -/
@[ext] structure Config where
  clientID : GoString := []
  dialer : Option Dialer := none
  tlsConfig : Option TlsConfig := none
deriving DecidableEq, Repr

/-- gen.option.go:33 `Option`: a function updating the configuration in place. -/
abbrev Opt := Config → Config

/-- gen.option.go:36-44 `WithDialer` -/
def withDialer (dialer : Option Dialer) : Opt := fun c =>
  match dialer with
  | none => { c with dialer := some .zero }
  | some d => { c with dialer := some d }

/-- gen.option.go:47-51 `WithTLS` -/
def withTLS (tlsConfig : Option TlsConfig) : Opt := fun c =>
  { c with tlsConfig := tlsConfig }

/-- gen.option.go:53-62 `buildConfig` -/
def buildConfig (opts : List Opt) : Config :=
  opts.foldl (fun c opt => opt c)
    { clientID := defaultClientID, dialer := some .zero }

/-- How a connection is made. -/
inductive DialMode where
  | plain (dialer : Dialer)
  | tls (dialer : Dialer) (config : TlsConfig)
  /-- the dialer is a nil pointer -/
  | nilDialer
deriving DecidableEq, Repr

/-- gen.conn.go:53-59 `dial`: how the connection is made. -/
def dialMode (c : Config) : DialMode :=
  match c.tlsConfig, c.dialer with
  | none, some d => .plain d
  | some t, some d => .tls d t
  | _, none => .nilDialer

end Kafka
