/-
Computations of which something can be seen: as `Tr` of Model/SidhSteps.lean, for any kind of step.
-/
namespace Model.Steps

/-- A computation: its result, `none` for a panic, and the steps seen. -/
def T (E α : Type) : Type := Option α × List E

variable {E α β : Type}

def T.val (m : T E α) : Option α := m.1
def T.log (m : T E α) : List E := m.2

/-- One after the other; a panic is the end. -/
def T.bind (m : T E α) (f : α → T E β) : T E β :=
  match m with
  | (none, l) => (none, l)
  | (some a, l) => ((f a).1, l ++ (f a).2)

instance : Monad (T E) where
  pure a := (some a, [])
  bind := T.bind

/-- Something is seen. -/
def tell (l : List E) : T E Unit := (some (), l)

/-- A value comes out, or a panic, of something that is seen as `l`. -/
def lift (v : Option α) (l : List E := []) : T E α := (v, l)

end Model.Steps
