import Verif.Model.Parallel
import Verif.Lemmas.Rust
/-!
# C15: parallel row decoding is schedule independent
-/

namespace Props
open Rust Model

section
variable {α : Type}

/-- Chunk `i` of a vector. -/
def chunkOf (n : Nat) (l : List α) (i : Nat) : List α := (l.drop (n * i)).take n

theorem chunkOf_length (n : Nat) (l : List α) (i : Nat) : (chunkOf n l i).length = Par.chunkLen n l.length i := by
  simp [chunkOf, Par.chunkLen]

theorem chunkOf_getElem? (n : Nat) (l : List α) (i k : Nat) (h : k < n) : (chunkOf n l i)[k]? = l[n * i + k]? := by
  simp [chunkOf, h]

theorem chunkOf_set_same (n : Nat) (l : List α) (i k : Nat) (v : α) (h : k < n) :
    chunkOf n (l.set (n * i + k) v) i = (chunkOf n l i).set k v := by
  unfold chunkOf
  rw [List.drop_set, if_neg (by omega), List.take_set]
  congr 1
  omega

theorem chunkOf_set_other (n : Nat) (l : List α) (i j k : Nat) (v : α) (h : k < n) (hij : i ≠ j) :
    chunkOf n (l.set (n * i + k) v) j = chunkOf n l j := by
  apply List.ext_getElem?
  intro m
  by_cases hm : m < n
  · rw [chunkOf_getElem? _ _ _ _ hm, chunkOf_getElem? _ _ _ _ hm, List.getElem?_set_ne]
    intro e
    apply hij
    have h1 : (n * i + k) / n = i := by rw [Nat.mul_add_div (by omega), Nat.div_eq_of_lt h, Nat.add_zero]
    have h2 : (n * j + m) / n = j := by rw [Nat.mul_add_div (by omega), Nat.div_eq_of_lt hm, Nat.add_zero]
    rw [← h1, e, h2]
  · rw [List.getElem?_eq_none, List.getElem?_eq_none]
    · simp [chunkOf]; omega
    · simp [chunkOf]; omega

/-- Every task, run alone from now on, still gives what it gives from the start. -/
def Inv (n : Nat) (out : List α) (P : Nat → Prog α) (s : Par α) : Prop :=
  s.mem.length = out.length ∧ s.progs.length = (out.length + n - 1) / n ∧
  ∀ i p, s.progs[i]? = some p → p.run (chunkOf n s.mem i) = (P i).run (chunkOf n out i)

theorem inv_set {n : Nat} {out : List α} {P : Nat → Prog α} {s : Par α} (hs : Inv n out P s) (i : Nat) (p : Prog α)
    (mem : List α) (hl : mem.length = s.mem.length) (hi : i < s.progs.length)
    (hsame : p.run (chunkOf n mem i) = (P i).run (chunkOf n out i))
    (hother : ∀ j, i ≠ j → chunkOf n mem j = chunkOf n s.mem j) : Inv n out P ⟨mem, s.progs.set i p⟩ := by
  obtain ⟨h1, h2, h3⟩ := hs
  refine ⟨by simp [hl, h1], by simp [h2], ?_⟩
  intro j q hq
  by_cases hij : i = j
  · subst hij
    simp only [List.getElem?_set_self hi, Option.some.injEq] at hq
    subst hq
    exact hsame
  · simp only [List.getElem?_set_ne hij] at hq
    simp only [hother j hij]
    exact h3 j q hq

theorem inv_step {n : Nat} (hn : 0 < n) {out : List α} {P : Nat → Prog α} {s : Par α} (hs : Inv n out P s) (i : Nat) :
    Inv n out P (s.step n i) := by
  unfold Par.step
  split
  · rename_i k cont hp
    have hi : i < s.progs.length := (List.getElem?_eq_some_iff.mp hp).1
    have hrun := hs.2.2 i _ hp
    rw [Prog.run] at hrun
    by_cases hk : k < Par.chunkLen n s.mem.length i
    · rw [if_pos hk]
      have hkn : k < n := by unfold Par.chunkLen at hk; omega
      rw [chunkOf_getElem? _ _ _ _ hkn] at hrun
      cases hm : s.mem[n * i + k]? with
      | none =>
        rw [List.getElem?_eq_none_iff] at hm
        unfold Par.chunkLen at hk
        omega
      | some a =>
        simp only [hm] at hrun
        exact inv_set hs i _ _ rfl hi hrun (fun _ _ => rfl)
    · rw [if_neg hk]
      have : (chunkOf n s.mem i)[k]? = none := by
        rw [List.getElem?_eq_none_iff, chunkOf_length]; omega
      simp only [this] at hrun
      exact inv_set hs i _ _ rfl hi (by rw [← hrun]; rfl) (fun _ _ => rfl)
  · rename_i k v next hp
    have hi : i < s.progs.length := (List.getElem?_eq_some_iff.mp hp).1
    have hrun := hs.2.2 i _ hp
    rw [Prog.run, chunkOf_length] at hrun
    by_cases hk : k < Par.chunkLen n s.mem.length i
    · rw [if_pos hk] at hrun ⊢
      have hkn : k < n := by unfold Par.chunkLen at hk; omega
      refine inv_set hs i _ _ (by simp) hi ?_ (fun j hij => chunkOf_set_other n _ _ _ _ _ hkn hij)
      rw [chunkOf_set_same _ _ _ _ _ hkn]
      exact hrun
    · rw [if_neg hk] at hrun ⊢
      exact inv_set hs i _ _ rfl hi (by rw [← hrun]; rfl) (fun _ _ => rfl)
  · exact hs

theorem inv_exec {n : Nat} (hn : 0 < n) {out : List α} {P : Nat → Prog α} {s : Par α} (hs : Inv n out P s) (sched : List Nat) :
    Inv n out P (s.exec n sched) := by
  induction sched generalizing s with
  | nil => exact hs
  | cons i l ih => exact ih (inv_step hn hs i)

theorem inv_start (n : Nat) (out : List α) (P : Nat → Prog α) : Inv n out P (Par.start n out P) := by
  refine ⟨rfl, by simp [Par.start], ?_⟩
  intro i p hp
  simp only [Par.start, List.getElem?_map, List.getElem?_range, Option.map_eq_some_iff] at hp
  obtain ⟨j, hj, rfl⟩ := hp
  rw [List.getElem?_range] at hj
  · simp only [Option.some.injEq] at hj; rw [hj]; rfl
  · have := (List.getElem?_eq_some_iff.mp hj).1
    simpa using this

theorem run_panic_or_ok (p : Prog α) (c : List α) : p.run c = crash ∨ ∃ r, p.run c = .ok r ∧ r.length = c.length := by
  induction p generalizing c with
  | done => exact .inr ⟨c, rfl, rfl⟩
  | panic => exact .inl rfl
  | read k cont ih =>
    rw [Prog.run]
    split
    · exact ih _ _
    · exact .inl rfl
  | write k v next ih =>
    rw [Prog.run]
    split
    · rcases ih (c.set k v) with h | ⟨r, h, hl⟩
      · exact .inl h
      · exact .inr ⟨r, h, by simpa using hl⟩
    · exact .inl rfl

theorem mapM_crash {β γ : Type} (f : β → M γ) (l : List β) (hp : ∀ x ∈ l, f x = crash ∨ ∃ r, f x = .ok r)
    (h : ∃ x ∈ l, f x = crash) : l.mapM f = crash := by
  induction l with
  | nil => obtain ⟨x, hx, _⟩ := h; simp at hx
  | cons a l ih =>
    rw [List.mapM_cons]
    rcases hp a (by simp) with ha | ⟨r, ha⟩
    · rw [ha]; rfl
    · obtain ⟨x, hx, hxc⟩ := h
      rcases List.mem_cons.mp hx with rfl | hx
      · rw [hxc] at ha; simp at ha
      · rw [ha, ok_bind, ih (fun y hy => hp y (by simp [hy])) ⟨x, hx, hxc⟩]; rfl

theorem flatten_chunks (n : Nat) (hn : 0 < n) (l : List α) : (chunks n l).flatten = l := by
  unfold chunks
  have : ∀ fuel (l : List α), l.length ≤ fuel → (chunksFuel n fuel l).flatten = l := by
    intro fuel
    induction fuel with
    | zero => intro l hl; have : l = [] := by simpa using hl
              simp [chunksFuel, this]
    | succ fuel ih =>
      intro l hl
      unfold chunksFuel
      cases l with
      | nil => rfl
      | cons a l =>
        rw [if_neg (by simp), List.flatten_cons, ih]
        · exact List.take_append_drop n (a :: l)
        · simp at hl ⊢; omega
  exact this _ l (Nat.le_refl _)

theorem mapM_chunks {n : Nat} (hn : 0 < n) (out : List α) (f : List α → Nat → M (List α)) (g : Nat → List α)
    (hf : ∀ i, i < (out.length + n - 1) / n → f (chunkOf n out i) i = .ok (g i)) :
    (chunks n out).zipIdx.mapM (fun p => f p.1 p.2) = .ok ((List.range ((out.length + n - 1) / n)).map g) := by
  rw [mapM_eq_ok_iff]
  refine ⟨by simp [chunks_length n hn], ?_⟩
  intro i a ha
  rw [List.getElem?_zipIdx] at ha
  simp only [chunks_getElem? n hn, Option.map_eq_some_iff] at ha
  obtain ⟨c, hc, rfl⟩ := ha
  split at hc
  · rename_i hlt
    simp only [Option.some.injEq] at hc
    subst hc
    have hi : i < (out.length + n - 1) / n := by
      rw [Nat.lt_iff_add_one_le, Nat.le_div_iff_mul_le hn, Nat.add_mul, Nat.mul_comm i n]; omega
    refine ⟨g i, by simp [hi], ?_⟩
    have := hf i hi
    simpa [chunkOf] using this
  · simp at hc

/-- C15. Whatever the order and interleaving of the tasks' memory accesses, when the parallel loop has an outcome it is the
outcome of running the tasks one after the other: the same vector, or a panic in every schedule. -/
theorem schedule_independent {n : Nat} (hn : 0 < n) (out : List α) (P : Nat → Prog α) (f : List α → Nat → M (List α))
    (himpl : ∀ i, (P i).run (chunkOf n out i) = f (chunkOf n out i) i)
    (sched : List Nat) (r : M (List α)) (hr : ((Par.start n out P).exec n sched).outcome = some r) :
    r = parChunksMut n out f := by
  have hinv := inv_exec hn (inv_start n out P) sched
  generalize (Par.start n out P).exec n sched = s at hr hinv
  obtain ⟨h1, h2, h3⟩ := hinv
  unfold parChunksMut
  rw [if_neg (by omega)]
  unfold Par.outcome at hr
  split at hr
  · rename_i hp
    simp only [Option.some.injEq] at hr
    subst hr
    rw [List.any_eq_true] at hp
    obtain ⟨p, hpm, hpp⟩ := hp
    obtain ⟨i, hi⟩ := List.getElem?_of_mem hpm
    have hrun := h3 i p hi
    have hcr : p.run (chunkOf n s.mem i) = crash := by
      cases p <;> simp [Prog.isPanic] at hpp ⊢ <;> rfl
    rw [hcr, himpl] at hrun
    have hil : i < (out.length + n - 1) / n := by rw [← h2]; exact (List.getElem?_eq_some_iff.mp hi).1
    have hlt : n * i < out.length := by
      have := (Nat.lt_iff_add_one_le.mp hil)
      rw [Nat.le_div_iff_mul_le hn, Nat.add_mul, Nat.mul_comm i n] at this
      omega
    have hz : (chunks n out).zipIdx[i]? = some (chunkOf n out i, i) := by
      rw [List.getElem?_zipIdx, chunks_getElem? n hn, if_pos hlt]; simp [chunkOf]
    rw [mapM_crash]
    · rfl
    · intro x hx
      obtain ⟨j, hj⟩ := List.getElem?_of_mem hx
      rw [List.getElem?_zipIdx, chunks_getElem? n hn] at hj
      simp only [Option.map_eq_some_iff] at hj
      obtain ⟨c, hc, rfl⟩ := hj
      split at hc
      · simp only [Option.some.injEq] at hc
        subst hc
        rcases run_panic_or_ok (P j) (chunkOf n out j) with h | ⟨r, h, _⟩
        · left; rw [himpl] at h; simpa [chunkOf] using h
        · right; rw [himpl] at h; exact ⟨r, by simpa [chunkOf] using h⟩
      · simp at hc
    · exact ⟨_, List.mem_of_getElem? hz, hrun.symm⟩
  · split at hr
    · rename_i hd
      simp only [Option.some.injEq] at hr
      subst hr
      rw [mapM_chunks hn out f (fun i => chunkOf n s.mem i)]
      · rw [ok_bind]
        congr 1
        have : (List.range ((out.length + n - 1) / n)).map (fun i => chunkOf n s.mem i) = chunks n s.mem := by
          apply List.ext_getElem?
          intro i
          rw [chunks_getElem? n hn, h1]
          by_cases hi : i < (out.length + n - 1) / n
          · have hlt : n * i < out.length := by
              have := (Nat.lt_iff_add_one_le.mp hi)
              rw [Nat.le_div_iff_mul_le hn, Nat.add_mul, Nat.mul_comm i n] at this
              omega
            rw [if_pos hlt]
            simp [hi, chunkOf]
          · have hge : ¬ n * i < out.length := by
              intro hlt
              apply hi
              rw [Nat.lt_iff_add_one_le, Nat.le_div_iff_mul_le hn, Nat.add_mul, Nat.mul_comm i n]; omega
            rw [if_neg hge, List.getElem?_eq_none]
            simp; omega
        rw [this, flatten_chunks n hn]
      · intro i hi
        have hlt : i < s.progs.length := by omega
        have hp := h3 i _ (List.getElem?_eq_getElem hlt)
        have hdone := List.all_eq_true.mp hd _ (List.getElem_mem hlt)
        rw [← himpl, ← hp]
        cases hq : s.progs[i] <;> simp [hq, Prog.isDone] at hdone ⊢
        rfl
    · simp at hr

/-- C15. No schedule can get stuck: from every reachable state the loop can still be brought to an outcome. -/
theorem schedule_progress (n : Nat) (s : Par α) : ∃ sched, ((s.exec n sched).outcome).isSome := by
  -- finish the tasks one at a time, each by structural recursion on what it has left
  have fin : ∀ (p : Prog α) (s : Par α) (i : Nat), s.progs[i]? = some p →
      ∃ sched, ∀ q, (s.exec n sched).progs[i]? = some q → (q.isDone ∨ q.isPanic) ∧
        (s.exec n sched).progs.length = s.progs.length ∧
        ∀ j, j ≠ i → (s.exec n sched).progs[j]? = s.progs[j]? := by
    intro p
    induction p with
    | done => intro s i hi; exact ⟨[], fun q hq => by simp [Par.exec, hi] at hq; subst hq; exact ⟨.inl rfl, rfl, fun _ _ => rfl⟩⟩
    | panic => intro s i hi; exact ⟨[], fun q hq => by simp [Par.exec, hi] at hq; subst hq; exact ⟨.inr rfl, rfl, fun _ _ => rfl⟩⟩
    | read k cont ih =>
      intro s i hi
      have hlt := (List.getElem?_eq_some_iff.mp hi).1
      by_cases hstep : ∃ a, s.step n i = ⟨s.mem, s.progs.set i (cont a)⟩
      · obtain ⟨a, ha⟩ := hstep
        obtain ⟨sched, hsched⟩ := ih a (s.step n i) i (by rw [ha]; simp [hlt])
        refine ⟨i :: sched, fun q hq => ?_⟩
        obtain ⟨h1, h2, h3⟩ := hsched q hq
        refine ⟨h1, ?_, ?_⟩
        · show (((s.step n i).exec n sched)).progs.length = _
          rw [h2, ha]; simp
        · intro j hj
          show (((s.step n i).exec n sched)).progs[j]? = _
          rw [h3 j hj, ha]; simp [List.getElem?_set_ne (Ne.symm hj)]
      · have hp : s.step n i = ⟨s.mem, s.progs.set i .panic⟩ := by
          unfold Par.step at hstep ⊢
          simp only [hi] at hstep ⊢
          split
          · split
            · rename_i hk _ a ha
              exfalso; apply hstep
              exact ⟨a, by rw [if_pos hk]; simp only [ha]⟩
            · rfl
          · rfl
        refine ⟨[i], fun q hq => ?_⟩
        simp only [Par.exec, List.foldl_cons, List.foldl_nil, hp] at hq ⊢
        simp only [List.getElem?_set_self hlt, Option.some.injEq] at hq
        subst hq
        exact ⟨.inr rfl, by simp, fun j hj => by simp [List.getElem?_set_ne (Ne.symm hj)]⟩
    | write k v next ih =>
      intro s i hi
      have hlt := (List.getElem?_eq_some_iff.mp hi).1
      have hs : (s.step n i).progs = s.progs.set i next ∨ (s.step n i).progs = s.progs.set i .panic := by
        unfold Par.step
        simp only [hi]
        split
        · exact .inl rfl
        · exact .inr rfl
      rcases hs with hs | hs
      · obtain ⟨sched, hsched⟩ := ih (s.step n i) i (by rw [hs]; simp [hlt])
        refine ⟨i :: sched, fun q hq => ?_⟩
        obtain ⟨h1, h2, h3⟩ := hsched q hq
        refine ⟨h1, ?_, ?_⟩
        · show (((s.step n i).exec n sched)).progs.length = _
          rw [h2, hs]; simp
        · intro j hj
          show (((s.step n i).exec n sched)).progs[j]? = _
          rw [h3 j hj, hs]; simp [List.getElem?_set_ne (Ne.symm hj)]
      · refine ⟨[i], fun q hq => ?_⟩
        simp only [Par.exec, List.foldl_cons, List.foldl_nil, hs] at hq ⊢
        simp only [List.getElem?_set_self hlt, Option.some.injEq] at hq
        subst hq
        exact ⟨.inr rfl, by simp, fun j hj => by simp [List.getElem?_set_ne (Ne.symm hj)]⟩
  have all : ∀ m, m ≤ s.progs.length → ∃ sched, (s.exec n sched).progs.length = s.progs.length ∧
      ∀ i q, i < m → (s.exec n sched).progs[i]? = some q → (q.isDone ∨ q.isPanic) := by
    intro m
    induction m with
    | zero => intro _; exact ⟨[], rfl, fun i q hi => by omega⟩
    | succ m ih =>
      intro hm
      obtain ⟨sched, hl, hq⟩ := ih (by omega)
      have hlt : m < (s.exec n sched).progs.length := by omega
      obtain ⟨sched', hf⟩ := fin _ (s.exec n sched) m (List.getElem?_eq_getElem hlt)
      have happ : s.exec n (sched ++ sched') = (s.exec n sched).exec n sched' := by simp [Par.exec, List.foldl_append]
      have hlen : ∀ (l : List Nat) (t : Par α), (t.exec n l).progs.length = t.progs.length := by
        intro l
        induction l with
        | nil => intro t; rfl
        | cons a l ih =>
          intro t
          show ((t.step n a).exec n l).progs.length = _
          rw [ih]
          unfold Par.step
          split <;> (try split) <;> (try split) <;> simp
      refine ⟨sched ++ sched', ?_, ?_⟩
      · rw [hlen]
      · intro i q hi hget
        rw [happ] at hget
        have hlt2 : m < ((s.exec n sched).exec n sched').progs.length := by rw [hlen]; exact hlt
        obtain ⟨h1, _, h3⟩ := hf _ (List.getElem?_eq_getElem hlt2)
        by_cases him : i = m
        · subst him
          rw [List.getElem?_eq_getElem hlt2, Option.some.injEq] at hget
          rw [← hget]; exact h1
        · rw [h3 i him] at hget
          exact hq i q (by omega) hget
  obtain ⟨sched, hl, hq⟩ := all _ (Nat.le_refl _)
  refine ⟨sched, ?_⟩
  unfold Par.outcome
  split
  · rfl
  · rename_i hnp
    rw [if_pos]
    · rfl
    · rw [List.all_eq_true]
      intro p hp
      obtain ⟨i, hi⟩ := List.getElem?_of_mem hp
      have hlt := (List.getElem?_eq_some_iff.mp hi).1
      rcases hq i p (by omega) hi with h | h
      · exact h
      · exfalso
        apply hnp
        rw [List.any_eq_true]
        exact ⟨p, hp, h⟩

end

/-- C15 for the row-parallel decoders: the outcome of `decode_threaded` does not depend on the schedule. -/
theorem decodeThreaded_schedule_independent {w h : Nat} (hw : 0 < w) (closure : List Nat → Nat → M (List Nat)) (P : Nat → Prog Nat)
    (himpl : ∀ i, (P i).run (chunkOf w (List.replicate (w * h) 0) i) = closure (chunkOf w (List.replicate (w * h) 0) i) i)
    (sched : List Nat) (r : M (List Nat))
    (hr : ((Par.start w (List.replicate (w * h) 0) P).exec w sched).outcome = some r) :
    r = decodeThreaded w h closure :=
  schedule_independent hw _ P closure himpl sched r hr

/-- Two rows of two; each task writes its row number and then copies the cell to its neighbour. -/
def demoProg (i : Nat) : Prog Nat := .write 0 (i + 5) (.read 0 fun a => .write 1 (a * 2) .done)

example : ((Par.start 2 [0, 0, 0, 0] demoProg).exec 2 [0, 1, 1, 0, 0, 1]).outcome = some (.ok [5, 10, 6, 12]) ∧
    ((Par.start 2 [0, 0, 0, 0] demoProg).exec 2 [1, 1, 1, 0, 0, 0]).outcome = some (.ok [5, 10, 6, 12]) ∧
    ((Par.start 2 [0, 0, 0, 0] demoProg).exec 2 [0, 1, 1, 0]).outcome = none ∧
    ((Par.start 2 [0, 0, 0] demoProg).exec 2 [1, 1, 0, 1]).outcome = some crash := by
  refine ⟨rfl, rfl, rfl, rfl⟩

example : parChunksMut 2 [0, 0, 0, 0] (fun c i => (demoProg i).run c) = .ok [5, 10, 6, 12] :=
  (schedule_independent (by decide) [0, 0, 0, 0] demoProg _ (fun _ => rfl) [0, 1, 1, 0, 0, 1] _ rfl).symm

end Props
