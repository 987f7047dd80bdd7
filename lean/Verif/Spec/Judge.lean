import Verif.Model.Judge

/-!
# Specification vocabulary for the judge process (C16-C20)
-/

namespace Verif.Judge

/-- The results enqueued in a history, in order. -/
def enqueued : List Ev → List Case
  | [] => []
  | .enq c :: h => c :: enqueued h
  | .status _ _ :: h => enqueued h
  | .say _ _ _ :: h => enqueued h
  | .ack _ :: h => enqueued h
  | .other :: h => enqueued h

/-- The results transmitted in a history, in order. -/
def transmitted : List Ev → List Case
  | [] => []
  | .enq _ :: h => transmitted h
  | .status _ cs :: h => cs ++ transmitted h
  | .say _ _ _ :: h => transmitted h
  | .ack _ :: h => transmitted h
  | .other :: h => transmitted h

/-- Packets that close a batch or a submission, or open a batch. -/
def Kind.closing : Kind → Bool
  | .gradingEnd | .gradingAborted | .batchBegin | .batchEnd | .internalError => true
  | .compileError | .compileMessage | .gradingBegin => false

/-- Packets that end a submission for the site. -/
def Kind.terminal : Kind → Bool
  | .gradingEnd | .gradingAborted | .compileError | .internalError => true
  | .compileMessage | .gradingBegin | .batchBegin | .batchEnd => false

/-- Worker messages that end a submission. -/
def Msg.terminal : Msg → Bool
  | .gradingEnd | .gradingAborted | .compileError | .unhandled => true
  | _ => false

/-- Does a result stay open (not followed by a message that closes something) after message `m`? -/
def openAfter (b : Bool) : Msg → Bool
  | .result _ => true
  | .gradingEnd | .gradingAborted | .batchBegin | .batchEnd | .unhandled => false
  | .hello | .compileError | .compileMessage | .gradingBegin | .garbage => b

/-- Is there a result not followed by a message that closes something? -/
def openResults (got : List Msg) : Bool := got.foldl openAfter false

/-- When the worker process may say BYE: after a message that ends the submission, with no result
left open. -/
def WorkerBye (got : List Msg) : Prop :=
  openResults got = false ∧ ∃ m ∈ got, Msg.terminal m = true

end Verif.Judge
