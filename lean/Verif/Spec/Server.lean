import Verif.Model.Server

/-! # Histories of the server -/

namespace Ion.Server
variable {W : Type}

/-- States of a server between events, `P` restricting the events that arrive. -/
inductive Reach (cfg : Cfg W) (P : PollEv → Prop) (s0 : Server W) : Server W → Prop
  | start : Reach cfg P s0 s0
  | reap (s : Server W) (now : Nat → Nat) (h : Reach cfg P s0 s) : Reach cfg P s0 (s.reapIdle now)
  | event (s s' : Server W) (ev : PollEv) (h : Reach cfg P s0 s) (hp : P ev)
      (he : s.handleEvent cfg ev = .ok s') : Reach cfg P s0 s'
  | stop (s : Server W) (r : StopReason) (h : Reach cfg P s0 s) : Reach cfg P s0 (s.stop r)

/-- Any events. -/
def anyEv : PollEv → Prop := fun _ => True

/-- Events during which the kernel refuses no registration. -/
def registers : PollEv → Prop := fun ev => ev.ctlFails1 = false ∧ ev.ctlFails2 = false

/-- A server started with some world on some descriptor, whatever happens with the poller. -/
def Serves (cfg : Cfg W) (s : Server W) : Prop :=
  ∃ w listener created fails, Reach cfg anyEv (begin w listener created fails) s

/-- A server whose poller was created and whose registrations were never refused. -/
def ServesWell (cfg : Cfg W) (s : Server W) : Prop :=
  ∃ w listener, Reach cfg registers (begin w listener true false) s

end Ion.Server
