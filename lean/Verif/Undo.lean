/-!
# Vocabulary of C64: functions that lose nothing
-/

namespace Blake2s

/-- A function can be undone: another function leads from every result back to the argument, and from every argument
to something that yields it. -/
def Undoable {α : Type} (f : α → α) : Prop := ∃ undo : α → α, (∀ x, undo (f x) = x) ∧ ∀ x, f (undo x) = x

end Blake2s
