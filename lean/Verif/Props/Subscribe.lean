import Verif.Client.Subscribe
/-!
Property C75: `Subscribe`.
-/
namespace Kafka.Props

open Kafka.Client

/-- The part of the claim that concerns the call itself: it returns a subscription or an error. -/
def C75_statement : Prop :=
  ∀ (b : Handle) (topics : GoString) (handler : Record.Message → Option Err) (env : Env) (tr : Trace),
    (∃ s tr', b.subscribe topics handler env tr = (.ok (some s), tr')) ∨ ∃ e tr', b.subscribe topics handler env tr = (.err e, tr')

/-- It never does: the result is always nil without an error, and nothing happens on the network; no broker is asked for
messages, on this connection or another. -/
theorem C75_never (b : Handle) (topics : GoString) (handler : Record.Message → Option Err) (env : Env) (tr : Trace) :
    b.subscribe topics handler env tr = (.ok none, tr) := rfl

theorem C75_fails : ¬ C75_statement := fun h => by
  rcases h ⟨{ config := {} }, 0⟩ [] (fun _ => none) ⟨fun _ _ => none, fun _ _ _ => .never⟩ [] with ⟨s, tr', h⟩ | ⟨e, tr', h⟩
  · rw [C75_never] at h; simp at h
  · rw [C75_never] at h; simp at h

end Kafka.Props
