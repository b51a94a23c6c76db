import Verif.Message.Encoder
import Verif.Message.Decoder
import Verif.Message.Sizeof
/-!
The statement forms the generated `Size`, `Encode` and `Decode` functions of
message/messages.gen.go are made of.  The generated Lean definitions under `Verif/Gen/Model`
list the statements of each Go function in order, using these combinators.
-/
namespace Kafka

/-- `f; g` for statements that update one variable (`sz` or `e`). -/
def andThen {σ : Type} (f g : σ → σ) : σ → σ := fun s => g (f s)

@[inherit_doc] infixl:55 " ;; " => andThen

/-- `if c { f }` -/
def onlyIf {σ : Type} (c : Prop) [Decidable c] (f : σ → σ) : σ → σ :=
  fun s => if c then f s else s

/-- no statement -/
def nop {σ : Type} : σ → σ := fun s => s

/-- `sz += n` -/
def Sizeof.add (n : Int32) : Int32 → Int32 := fun sz => sz + n

namespace Dec

/-- `t.F, err = d.M(); if err != nil { return err }` -/
def field {τ α : Type} (m : Dec α) (set : τ → α → τ) : τ → Dec τ := fun t => do
  let x ← m
  pure (set t x)

/-- the statement for a field that is an array of structures, see `Dec.structs` -/
def fieldStructs {τ α : Type} (dec : Dec α) (get : τ → Slice α) (set : τ → Slice α → τ) :
    τ → Dec τ := fun t => do
  let x ← structs dec (get t)
  pure (set t x)

/-- `f; g` for statements that update the receiver and may return early. -/
def andThen {τ : Type} (f g : τ → Dec τ) : τ → Dec τ := fun t => f t >>= g

@[inherit_doc] infixl:55 " ;> " => Dec.andThen

/-- `if c { f }` -/
def onlyIf {τ : Type} (c : Prop) [Decidable c] (f : τ → Dec τ) : τ → Dec τ :=
  fun t => if c then f t else pure t

/-- no statement -/
def nop {τ : Type} : τ → Dec τ := fun t => pure t

end Dec

/-- The methods of a message type, bundled (`Size`, `Encode`, `Decode` and the Go zero
value `var t T`). -/
structure MsgType where
  /-- the Go name of the type -/
  name : String
  T : Type
  zero : T
  size : Int16 → T → Int32
  encode : Int16 → T → Encoder → Encoder
  decode : Int16 → T → Dec T

end Kafka
