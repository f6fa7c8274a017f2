import Verif.Spec.Frames

/-!
# Specification: stream states, RFC 9113 section 5.1, as far as the frames a client sends determine them
-/

namespace Ion.Spec

/-- Section 5.1, seen from the server: no frame yet; the client has sent HEADERS and may send more; the client has
ended or reset the stream ("half-closed (remote)" or "closed"). -/
inductive StreamState
  | idle
  | opened
  | ended
deriving DecidableEq, Repr

/-- Section 5.1: what a frame of the client does to the state of its stream. END_STREAM is 0x1 in HEADERS and DATA
frames. -/
def StreamState.next (st : StreamState) (f : Frame) : StreamState :=
  if f.type = 3 then .ended
  else if f.type = 0 ∨ f.type = 1 then
    if f.flags &&& 1 ≠ 0 then .ended
    else if st = .idle ∧ f.type = 1 then .opened else st
  else st

/-- The state of a stream after these frames. -/
def streamState (fs : List Frame) (id : Nat) : StreamState :=
  fs.foldl (fun st f => if f.stream = id then st.next f else st) .idle

/-- Section 5.1: frames that have to be treated as an error in this state: on an idle stream any frame but HEADERS and
PRIORITY (here DATA, RST_STREAM, WINDOW_UPDATE and CONTINUATION); on a stream the client has ended DATA and HEADERS. -/
def NotAllowed (st : StreamState) (f : Frame) : Prop :=
  f.stream ≠ 0 ∧ ((st = .idle ∧ (f.type = 0 ∨ f.type = 3 ∨ f.type = 8 ∨ f.type = 9)) ∨
    (st = .ended ∧ (f.type = 0 ∨ f.type = 1)))

instance (st : StreamState) (f : Frame) : Decidable (NotAllowed st f) := inferInstanceAs (Decidable (_ ∧ _))

/-- No frame is sent that the state of its stream does not allow. -/
def StatesKept (fs : List Frame) : Prop :=
  ∀ pre f post, fs = pre ++ f :: post → ¬ NotAllowed (streamState pre f.stream) f

/-- A client that makes a request on stream 1, with a body, and then one on stream 3. -/
example : StatesKept [⟨1, 4, 1, []⟩, ⟨0, 1, 1, [1]⟩, ⟨1, 5, 3, []⟩] := by
  intro pre f post h
  match pre, h with
  | [], h => cases h; decide
  | [_], h => cases h; decide
  | [_, _], h => cases h; decide
  | _ :: _ :: _ :: pre, h => simp at h

/-- DATA after END_STREAM is not allowed. -/
example : ¬ StatesKept [⟨1, 5, 1, []⟩, ⟨0, 1, 1, [1]⟩] := fun h => h [⟨1, 5, 1, []⟩] _ [] rfl (by decide)

end Ion.Spec
