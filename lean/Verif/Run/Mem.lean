/-!
# Memory of a process
-/
namespace Verif.Run

/-- Bytes by address. -/
abbrev Mem := Nat → UInt8

def read (m : Mem) (a n : Nat) : List UInt8 := (List.range n).map (fun i => m (a + i))

def write (m : Mem) (a : Nat) (bs : List UInt8) : Mem :=
  fun x => if a ≤ x ∧ x < a + bs.length then bs.getD (x - a) 0 else m x

@[simp] theorem read_length (m : Mem) (a n : Nat) : (read m a n).length = n := by simp [read]

theorem write_outside (m : Mem) (a : Nat) (bs : List UInt8) (x : Nat) (h : x < a ∨ a + bs.length ≤ x) :
    write m a bs x = m x := by
  unfold write
  rw [if_neg (by omega)]

theorem write_inside (m : Mem) (a : Nat) (bs : List UInt8) (i : Nat) (h : i < bs.length) :
    write m a bs (a + i) = bs[i] := by
  unfold write
  rw [if_pos (by omega)]
  have : a + i - a = i := by omega
  rw [this, List.getD_eq_getElem?_getD, List.getElem?_eq_getElem h]
  rfl

theorem read_congr (m m' : Mem) (a n : Nat) (h : ∀ x, a ≤ x → x < a + n → m' x = m x) : read m' a n = read m a n := by
  unfold read
  apply List.map_congr_left
  intro i hi
  rw [List.mem_range] at hi
  exact h _ (by omega) (by omega)

theorem read_write (m : Mem) (a : Nat) (bs : List UInt8) : read (write m a bs) a bs.length = bs := by
  apply List.ext_getElem
  · simp
  · intro i h1 h2
    simp only [read, List.getElem_map, List.getElem_range]
    exact write_inside m a bs i h2

end Verif.Run
