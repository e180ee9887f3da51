import Verif.Model.LogFiles

/-! # Specification for C254 -/

namespace Oplab.Spec
open Oplab

/-- The texts of the messages of a run, up to the one that ends it. -/
def texts : List LogStep → List String
  | [] => []
  | .message k t :: l => t :: if k = .quit then [] else texts l
  | _ :: l => texts l

/-- The run opens no log file. -/
def NoOpen (l : List LogStep) : Prop := ∀ e ∈ l, ∀ f h, e ≠ .openLog f h

/-- The run does not end. -/
def NoQuit (l : List LogStep) : Prop := ∀ e ∈ l, ∀ t, e ≠ .message .quit t

/-- Full property: the log of a command holds the messages of that command only, each once. -/
def LogOfCommand : Prop :=
  ∀ (f g : String) (hf hg : List String) (a b : List LogStep), NoOpen a → NoOpen b → NoQuit a →
    let s := logRun {} (.openLog f hf :: a ++ .openLog g hg :: b)
    (f ≠ g → s.files f = hf ++ texts a) ∧ s.files g = (if f = g then hf ++ texts a else []) ++ hg ++ texts b

/-- Full property: both programs keep the log of parsing several dives with the same dive. -/
def SameLogFolder : Prop := ∀ dives : List String, ∀ d e, navParseLog dives = .ok d → correctParseLog dives = .ok e → d = e

end Oplab.Spec
