import Verif.Model.Conc
/-
The critical sections of gcNode, updateNode and SendDMXToAddress in small steps. In Model/Conc.lean each of them is one step. Here a
goroutine takes nodeLock (controller.go:217, 296, 376), changes the tables in any number of small steps, between which other goroutines
do what they can, and then unlocks. How a section is cut into small steps is left open: any list of functions will do that together
have the effect of the section on the tables as they are when it begins.
-/
namespace Verif.Conc
open Packet Code Artnet

/-- What a section does, as an operation of the controller. -/
def Thread.op? : Thread → Choice → Option Op
  | .plGc, .clock c => some (.gc c)
  | .plGot p, .at now => if ignored p then none else some (.reply p now)
  | .caller dmx a, .next => some (.send dmx a)
  | _, _ => none

/-- A section that has begun: the goroutine, its clock and what is still to be done. -/
structure Section where
  who : Nat
  choice : Choice
  rest : List (Ctrl → Ctrl)

/-- A system with at most one section that has begun. -/
structure Fine where
  sys : Sys
  busy : Option Section

/-- The small steps. -/
inductive Small
  /-- goroutine `i` locks and begins its section -/
  | enter (i : Nat) (c : Choice) (fs : List (Ctrl → Ctrl))
  /-- the next small step of the section -/
  | work
  /-- the section ends, unlocks and goes on -/
  | leave
  /-- everything else is as in Model/Conc.lean -/
  | act (a : Act)

/-- The goroutine that does the action. -/
def Sys.runner (s : Sys) : Act → Option Thread
  | .run i _ => s.threads[i]?
  | _ => none

/-- The state after a small step. -/
inductive Fine.Does (P : Params) : Fine → Small → Fine → Prop
  | enter {s : Sys} {i : Nat} {c : Choice} {fs : List (Ctrl → Ctrl)} {t : Thread} {o : Op} :
    s.crashed = none → s.lock = false → s.threads[i]? = some t → t.op? c = some o →
    fs.foldl (fun x f => f x) s.ctrl = (s.ctrl.step o).1 →
    Fine.Does P ⟨s, none⟩ (.enter i c fs) ⟨{ s with lock := true }, some ⟨i, c, fs⟩⟩
  | work {s : Sys} {i : Nat} {c : Choice} {f : Ctrl → Ctrl} {fs : List (Ctrl → Ctrl)} :
    s.crashed = none → Fine.Does P ⟨s, some ⟨i, c, f :: fs⟩⟩ .work ⟨{ s with ctrl := f s.ctrl }, some ⟨i, c, fs⟩⟩
  | leave {s s' : Sys} {i : Nat} {c : Choice} :
    ({ s with lock := false } : Sys).exec P (.run i c) = some s' →
    Fine.Does P ⟨s, some ⟨i, c, []⟩⟩ .leave ⟨{ s' with ctrl := s.ctrl }, none⟩
  | act {s s' : Sys} {a : Act} {b : Option Section} :
    (∀ t c, s.runner a = some t → t.op? c = none) → s.exec P a = some s' → Fine.Does P ⟨s, b⟩ (.act a) ⟨s', b⟩

/-- The state after a list of small steps. -/
inductive Fine.Runs (P : Params) : Fine → List Small → Fine → Prop
  | nil (f : Fine) : Fine.Runs P f [] f
  | cons {f g h : Fine} {x : Small} {xs : List Small} : Fine.Does P f x g → Fine.Runs P g xs h → Fine.Runs P f (x :: xs) h

end Verif.Conc
