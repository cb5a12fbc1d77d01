import Verif.Proofs.HeapObjects
import Verif.Proofs.HeapCheck
import Verif.Props.Objects
/-
C76: `equals`, `hashCode` and `toString` of messages on the heap depend on the values shown only, whatever objects are shared; they do
not return for cyclic messages.

`Shows h v x` (`Spec/Heap.lean`): following all references from `x` gives the tree `v`.  `same` and `render` (`Spec/Objects.lean`): two trees
have the same values in the same places; the printed form of a tree.  `height v` counts nested values.
-/
namespace FinProto

/-- **C76.** `equals` returns, on a large enough stack, and says whether the two messages show the same values: also if they are one object,
if they have parts in common, or if one is a part of the other. -/
theorem C76_equals (h : Heap) (n : Nat) (v u : Val) (x y : HVal) (hx : Shows h v x) (hy : Shows h u y) (hv : wellTyped v = true)
    (hu : wellTyped u = true) (hn : height v ≤ n) : ∃ r, hequals h n x y = .ok r ∧ (r = true ↔ same v u) :=
  ⟨_, hequals_eq h n v u x y hx hy (shaped_of_wellTyped v hv) (shaped_of_wellTyped u hu) hn, C45_equals_same v u hv hu⟩

/-- **C76.** `hashCode` of a message on the heap is that of the tree it shows; so two messages that show the same values, even on
different heaps with different sharing, have the same hash code. -/
theorem C76_hash (h h' : Heap) (n : Nat) (v u : Val) (x y : HVal) (hx : Shows h v x) (hy : Shows h' u y) :
    hhash h n x = v.hashCode n ∧ (wellTyped v = true → same v u → hhash h n x = hhash h' n y) := by
  refine ⟨hhash_eq h n v x hx, fun hv hs => ?_⟩
  rw [hhash_eq h n v x hx, hhash_eq h' n u y hy]
  exact hashCode_same n v u (shaped_of_wellTyped v hv) hs

/-- **C76.** `toString` prints the tree, on a large enough stack. -/
theorem C76_toString (h : Heap) (flt : Num → JStr) (n : Nat) (v : Val) (x : HVal) (hx : Shows h v x) (hv : wellTyped v = true)
    (hn : height v ≤ n) : htoStr h flt n x = some (render flt v) := by
  rw [htoStr_eq h flt n v x hx]
  exact C50_toString flt v hv n hn

/-- **C76.** Every object is equal to itself, at once, even if it is cyclic. -/
theorem C76_same_object (h : Heap) (n r : Nat) : hequals h (n + 1) (.ref r) (.ref r) = .ok true := by
  simp [hequals]

/-- The object at `q` refers to itself, directly or through other objects. -/
def OnCycle (h : Heap) (q : Nat) : Prop := ∃ o y, h[q]? = some o ∧ y ∈ o.values ∧ Reach h y q

theorem showsAll_mem {h : Heap} : ∀ {vs : List Val} {ys : List HVal}, ShowsAll h vs ys → ∀ y ∈ ys, ∃ v ∈ vs, Shows h v y
  | [], ys, hs, y, hy => by rw [ShowsAll] at hs; subst hs; cases hy
  | v :: vs, ys, hs, y, hy => by
    rw [ShowsAll] at hs
    obtain ⟨z, zs, rfl, h1, h2⟩ := hs
    rcases List.mem_cons.mp hy with rfl | hy
    · exact ⟨v, List.mem_cons_self .., h1⟩
    · obtain ⟨u, hu, hs⟩ := showsAll_mem h2 y hy
      exact ⟨u, List.mem_cons_of_mem _ hu, hs⟩

theorem shows_part {h : Heap} {v : Val} {r : Nat} {o : HObj} {y : HVal} (hs : Shows h v (.ref r)) (hr : h[r]? = some o) (hy : y ∈ o.values) :
    ∃ u, Shows h u y ∧ sizeOf u < sizeOf v := by
  cases v with
  | list xs =>
    rw [Shows] at hs
    obtain ⟨a, ys, e, ha, hall⟩ := hs
    cases e
    rw [hr] at ha
    cases ha
    obtain ⟨u, hu, h1⟩ := showsAll_mem hall y hy
    exact ⟨u, h1, sizeOf_mem_list xs u hu⟩
  | obj c xs =>
    rw [Shows] at hs
    obtain ⟨a, ys, e, ha, hall⟩ := hs
    cases e
    rw [hr] at ha
    cases ha
    obtain ⟨u, hu, h1⟩ := showsAll_mem hall y hy
    refine ⟨u, h1, ?_⟩
    have := List.sizeOf_lt_of_mem hu
    simp only [Val.obj.sizeOf_spec]
    omega
  | _ => simp [Shows] at hs

theorem shows_reach {h : Heap} {x : HVal} {q : Nat} (hr : Reach h x q) : ∀ v, Shows h v x → ∃ u, Shows h u (.ref q) ∧ sizeOf u ≤ sizeOf v := by
  induction hr with
  | here r => intro v hv; exact ⟨v, hv, Nat.le_refl _⟩
  | step r q o y ho hy _ ih =>
    intro v hv
    obtain ⟨u, h1, h2⟩ := shows_part hv ho hy
    obtain ⟨t, h3, h4⟩ := ih u h1
    exact ⟨t, h3, by omega⟩

theorem no_cycle {h : Heap} {x : HVal} {v : Val} (hs : Shows h v x) (q : Nat) (hr : Reach h x q) : ¬ OnCycle h q := by
  rintro ⟨o, y, ho, hy, hq⟩
  obtain ⟨u, h1, _⟩ := shows_reach hr v hs
  obtain ⟨t, h2, h3⟩ := shows_part h1 ho hy
  obtain ⟨t', h4, h5⟩ := shows_reach hq t h2
  have := shows_det u _ _ h1 h4
  subst this
  omega

/-- **C76.** `hashCode` and `toString` return for finite trees only: if an object on a cycle can be reached from the message they never do,
whatever the size of the stack.  (Messages have the fields of their class and no list is an element of itself: Java's types see to it.) -/
theorem C76_cyclic (h : Heap) (hf : FieldsOK h) (hl : ∀ (a : Nat) xs, h[a]? = some (.arr xs) → HVal.ref a ∉ xs) (x : HVal) (q : Nat)
    (hr : Reach h x q) (hq : OnCycle h q) (n : Nat) :
    (∀ k, hhash h n x ≠ .ok k) ∧ ∀ flt, htoStr h flt n x = none := by
  constructor
  · intro k hk
    obtain ⟨v, hv⟩ := hhash_finite h hf n x k hk
    exact no_cycle hv q hr hq
  · intro flt
    cases hs : htoStr h flt n x with
    | none => rfl
    | some s =>
      obtain ⟨v, hv⟩ := htoStr_finite h hf hl flt n x s hs
      exact absurd hq (no_cycle hv q hr)

/-- Objects 0 and 1: two SSE frames, each its own body.  Objects 2, 3, 4: a list used by two messages that show the same values. -/
def exKnots : Heap :=
  [.msg .sse_SseBinary [.num ⟨.i32, 1⟩, .num ⟨.i64, 2⟩, .num ⟨.i32, 3⟩, .ref 0, .num ⟨.i32, 4⟩],
   .msg .sse_SseBinary [.num ⟨.i32, 1⟩, .num ⟨.i64, 2⟩, .num ⟨.i32, 3⟩, .ref 1, .num ⟨.i32, 4⟩],
   .arr [.str (js "AB"), .null],
   .msg .sse_ExecRptInfo [.num ⟨.i16, 7⟩, .ref 2, .null],
   .msg .sse_ExecRptInfo [.num ⟨.i16, 7⟩, .ref 2, .null]]

/-- The hypotheses of the theorems above are met: two messages with a common list … -/
def exKnotTree : Val := .obj .sse_ExecRptInfo [.num ⟨.i16, 7⟩, .list [.str (js "AB"), .null], .null]
example : Shows exKnots exKnotTree (.ref 3) ∧ Shows exKnots exKnotTree (.ref 4) :=
  ⟨(showsB_iff _ _ _).mp (by decide +kernel), (showsB_iff _ _ _).mp (by decide +kernel)⟩
example : wellTyped exKnotTree = true ∧ height exKnotTree = 3
    ∧ (hequals exKnots 3 (.ref 3) (.ref 4)).toOption = some true ∧ (hequals exKnots 3 (.ref 3) (.ref 2)).toOption = some false
    ∧ (hhash exKnots 3 (.ref 3)).toOption = (hhash exKnots 3 (.ref 4)).toOption ∧ (hhash exKnots 3 (.ref 3)).toOption.isSome = true
    ∧ htoStr exKnots (fun _ => []) 3 (.ref 3) = some (js "ExecRptInfo [platformId=7, pbu=[AB, null], setId=null]") := by decide +kernel

/-- … and a frame that is its own body. -/
example : OnCycle exKnots 0 ∧ Reach exKnots (.ref 0) 0 :=
  ⟨⟨_, .ref 0, rfl, by simp [HObj.values], .here 0⟩, .here 0⟩

/-- **C76 violated for cycles.** `equals` on two different cyclic messages with the same values does not return either. -/
theorem C76_cyclic_equals_violated (n : Nat) : hequals exKnots n (.ref 0) (.ref 1) = .error .stackOverflow := by
  induction n with
  | zero => rfl
  | succ n ih =>
    cases n with
    | zero => rfl
    | succ n =>
      have e : hequals exKnots (n + 2) (.ref 0) (.ref 1)
          = hequalsFields (hequals exKnots (n + 1)) [.num ⟨.i32, 1⟩, .num ⟨.i64, 2⟩, .num ⟨.i32, 3⟩, .ref 0, .num ⟨.i32, 4⟩]
              [.num ⟨.i32, 1⟩, .num ⟨.i64, 2⟩, .num ⟨.i32, 3⟩, .ref 1, .num ⟨.i32, 4⟩] Sse.SseBinary.eqs := by
        rw [hequals, if_neg (by decide)]
        rfl
      have e1 : ∀ a : Num, a.eqv a = true → hequals exKnots (n + 1) (.num a) (.num a) = .ok true := fun a ha => by simp [hequals, ha]
      rw [e]
      simp only [Sse.SseBinary.eqs, hequalsFields, List.getElem?_cons_zero, List.getElem?_cons_succ, ih,
        e1 ⟨.i32, 1⟩ (by decide), e1 ⟨.i64, 2⟩ (by decide), e1 ⟨.i32, 3⟩ (by decide)]

/-- `C76_equals`, `C76_hash`, `C76_toString` on two objects that share a list. -/
example := C76_equals exKnots 3 exKnotTree exKnotTree (.ref 3) (.ref 4) (by decide +kernel) (by decide +kernel) (by decide +kernel) (by decide +kernel)
  (by decide +kernel)
example := (C76_hash exKnots exKnots 3 exKnotTree exKnotTree (.ref 3) (.ref 4) (by decide +kernel) (by decide +kernel)).2 (by decide +kernel) (same_refl _)
example := C76_toString exKnots (fun _ => []) 3 exKnotTree (.ref 3) (by decide +kernel) (by decide +kernel) (by decide +kernel)

/-- `C76_cyclic` on a frame that is its own body. -/
example := C76_cyclic [exKnots[0]] (by
    intro q c ys hq
    have : q = 0 := by
      have := (List.getElem?_eq_some_iff.mp hq).1
      simp at this
      exact this
    subst this
    cases hq
    decide +kernel) (by
    intro a xs ha
    have : a = 0 := by
      have := (List.getElem?_eq_some_iff.mp ha).1
      simp at this
      exact this
    subst this
    cases ha) (.ref 0) 0 (.here 0) ⟨_, .ref 0, rfl, by simp [exKnots, HObj.values], .here 0⟩

end FinProto
