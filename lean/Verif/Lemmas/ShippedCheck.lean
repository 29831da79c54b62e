import Verif.Lemmas.Camera
import Verif.Lemmas.FxCheck
import Verif.Props.Cfa
import Verif.Spec.Shipped
/-!
# Checking a file of the database

A file is checked by computing; what the check means is proved here. The check is run on all files in `ShippedFiles`.
-/

namespace Shipped
open Model Rust Spec TomlText

/-- A number for a name; it is different for all names of the database that are not shared. -/
def hash (k : Bytes × Bytes × Bytes) : Nat :=
  (k.1 ++ 0 :: (k.2.1 ++ 0 :: k.2.2)).foldl (fun n c => n * 256 + c.toNat) 0 % 37195

def isStr : Toml → Bool | .str _ => true | _ => false
def isInt : Toml → Bool | .int _ => true | _ => false

/-- The value is one the key may have. -/
def keyOk (k : Bytes) (v : Toml) : Bool :=
  if k = b! "make" then isStr v
  else if k = b! "model" then isStr v
  else if k = b! "mode" then isStr v
  else if k = b! "clean_make" then isStr v
  else if k = b! "clean_model" then isStr v
  else if k = b! "whitepoint" then isInt v
  else if k = b! "blackpoint" then isInt v
  else if k = b! "blackareah" then (match v with | .arr (a :: b :: _) => isInt a && isInt b | _ => false)
  else if k = b! "blackareav" then (match v with | .arr (a :: b :: _) => isInt a && isInt b | _ => false)
  else if k = b! "color_matrix" then (match v with | .arr l => l.length ≤ 12 && l.all isInt | _ => false)
  else if k = b! "crops" then (match v with | .arr l => l.length ≤ 4 && l.all isInt | _ => false)
  else if k = b! "color_pattern" then (match v with
    | .str s => (s.length = 0 || s.length = 4 || s.length = 16 || s.length = 36 || s.length = 144) && s.all (fun c => [82, 71, 66, 69, 77, 89].contains c.toNat)
    | _ => false)
  else if k = b! "bps" then isInt v
  else if k = b! "wb_offset" then isInt v
  else if k = b! "filesize" then isInt v
  else if k = b! "raw_width" then isInt v
  else if k = b! "raw_height" then isInt v
  else if k = b! "hints" then (match v with | .arr l => l.all isStr | _ => false)
  else true

def tableOk (t : Table) : Bool := t.all fun p => keyOk p.1 p.2

def modesOk (t : Table) : Bool :=
  match Map.get t (b! "modes") with
  | none => true
  | some (.arr l) => l.all (fun m => match m with | .table m => tableOk m | _ => false)
  | some _ => false

def aliasOk : Toml → Bool
  | .arr (.str _ :: .str _ :: _) => true
  | _ => false

def aliasesOk (t : Table) : Bool :=
  match Map.get t (b! "model_aliases") with
  | none => true
  | some (.arr l) => l.all aliasOk
  | some _ => false

def distinct : List Bytes → Bool
  | [] => true
  | k :: ks => ks.all (fun k' => k' != k) && distinct ks

/-- The number is a binary32 number. -/
def exact (i : Int) : Bool := i.natAbs ≤ 2 ^ 24 || (i % 2 = 0 && i.natAbs ≤ 2 ^ 25)

def entries (v : Variant) : List Int := (List.range 12).map fun i => intOf (v.item (b! "color_matrix") i)

/-- The determinant of the first three rows. -/
def det : List Int → Int
  | a :: b :: c :: d :: e :: f :: g :: h :: i :: _ => a * (e * i - f * h) - b * (d * i - f * g) + c * (d * h - e * g)
  | _ => 0

def goodLevels (v : Variant) : Bool :=
  levelOf (v.setting (b! "blackpoint")) < levelOf (v.setting (b! "whitepoint")) || decide (LevelsInModes v.key)

/-- The matrix is computed with well. -/
noncomputable def goodEntries (l : List Int) : Bool := l.all exact && det l ≠ 0 && Fast.accurate l

theorem good_cons {l : List Int} {ms : List (List Int)} (h : goodEntries l = true) (hs : ms.all goodEntries = true) : (l :: ms).all goodEntries = true := by
  rw [List.all_cons, h, hs]
  rfl

/-- The matrix is one of those with the given numbers in a list. -/
def goodMatrix (ms : List (List Int)) (ix : List Nat) (v : Variant) : Bool := ix.any fun n => ms.getD n [] = entries v

/-- The settings of a headerless file: samples of 10 or 12 bits that fill it, and masked areas inside of it. -/
def goodNaked (v : Variant) : Bool :=
  let size := v.filesize
  if size = 0 then true
  else
    let w := natOf (v.setting (b! "raw_width"))
    let h := natOf (v.setting (b! "raw_height"))
    let ah := itemsOf (v.setting (b! "blackareah"))
    let av := itemsOf (v.setting (b! "blackareav"))
    0 < w && w < 2 ^ 16 && 0 < h && h < 2 ^ 16 && textOf (v.setting (b! "color_pattern")) ≠ [] &&
    natOf ah[0]? + natOf ah[1]? ≤ h && natOf av[0]? + natOf av[1]? ≤ w &&
    (if (itemsOf (v.setting (b! "hints"))).any (fun t => textOf (some t) = b! "12le_16bitaligned") then
      w % 2 = 0 && h * ((w / 2 * 3 + 1) / 2 * 2) ≤ size
    else (size * 8 / w / h = 10 && w % 8 = 0) || (size * 8 / w / h = 12 && w * h % 4 = 0))

def goodTable (ms : List (List Int)) (t : Table) (hs sizes ix : List Nat) : Bool :=
  tableOk t && modesOk t && aliasesOk t && (modesIn t).all (fun m => distinct (m.map Prod.fst)) &&
  (match variantsIn t with
  | vs => vs.all goodLevels && vs.all (goodMatrix ms ix) && vs.all goodNaked &&
    ((vs.map Variant.key).filter (fun k => !sharedNames.contains k)).map hash = hs && (vs.map Variant.filesize).filter (0 < ·) = sizes)

def goodFile (ms : List (List Int)) (f : Nat) (hs sizes ix : List Nat) : Bool :=
  match readFile f with
  | some t => goodTable ms t hs sizes ix
  | none => false

/-- The numbers of a file: of its names, the sizes of headerless files, and where its matrices are. -/
abbrev Row := List Nat × List Nat × List Nat

def goodFiles (ms : List (List Int)) : List Nat → List Row → Bool
  | [], [] => true
  | f :: fs, h :: hs => goodFile ms f h.1 h.2.1 h.2.2 && goodFiles ms fs hs
  | _, _ => false

/-! ## What the checks mean -/

theorem isStr_ok {v : Toml} (h : isStr v = true) : ∃ s, v.asStr = .ok s := by cases v <;> first | exact ⟨_, rfl⟩ | cases h
theorem isInt_ok {v : Toml} (h : isInt v = true) : ∃ i, v.asInt = .ok i := by cases v <;> first | exact ⟨_, rfl⟩ | cases h
theorem isInt_usize {v : Toml} (h : isInt v = true) : ∃ n, v.asUsize = .ok n := by
  obtain ⟨i, hi⟩ := isInt_ok h
  exact ⟨_, by unfold Toml.asUsize; rw [hi, ok_bind]⟩

theorem pair_ok {v : Toml} (h : (match v with | .arr (a :: b :: _) => isInt a && isInt b | _ => false) = true) : ∃ p, Camera.pairOf v = .ok p := by
  match v, h with
  | .arr (a :: b :: l), h =>
    rw [Bool.and_eq_true] at h
    obtain ⟨x, hx⟩ := isInt_usize h.1
    obtain ⟨y, hy⟩ := isInt_usize h.2
    refine ⟨(x, y), ?_⟩
    unfold Camera.pairOf
    rw [show (Toml.arr (a :: b :: l)).asArr = .ok (a :: b :: l) from rfl, ok_bind, show idx (a :: b :: l) 0 = .ok a from rfl, ok_bind, hx, ok_bind,
      show idx (a :: b :: l) 1 = .ok b from rfl, ok_bind, hy, ok_bind]

theorem setMatrix_total : ∀ (l : List Toml) (i : Nat) (m : List (List F32)), IsGrid 4 3 m → i + l.length ≤ 12 → l.all isInt = true →
    ∃ m', Camera.setMatrix i l m = .ok m' ∧ IsGrid 4 3 m' := by
  intro l
  induction l with
  | nil => exact fun i m hm _ _ => ⟨m, rfl, hm⟩
  | cons v l ih =>
    intro i m hm hl ha
    rw [List.all_cons, Bool.and_eq_true] at ha
    rw [List.length_cons] at hl
    obtain ⟨x, hx⟩ := isInt_ok ha.1
    obtain ⟨m', e1, e2, -⟩ := setIdx2_grid hm (r := i / 3) (c := i % 3) (by omega) (by omega) (F32.ofRat x)
    obtain ⟨m'', h1, h2⟩ := ih (i + 1) m' e2 (by omega) ha.2
    exact ⟨m'', by rw [Camera.setMatrix, hx, ok_bind, e1, ok_bind, h1], h2⟩

theorem setCrops_total : ∀ (l : List Toml) (i : Nat) (m : List Nat), m.length = 4 → i + l.length ≤ 4 → l.all isInt = true →
    ∃ m', Camera.setCrops i l m = .ok m' ∧ m'.length = 4 := by
  intro l
  induction l with
  | nil => exact fun i m hm _ _ => ⟨m, rfl, hm⟩
  | cons v l ih =>
    intro i m hm hl ha
    rw [List.all_cons, Bool.and_eq_true] at ha
    rw [List.length_cons] at hl
    obtain ⟨x, hx⟩ := isInt_usize ha.1
    obtain ⟨m'', h1, h2⟩ := ih (i + 1) (m.set i x) (by simpa using hm) (by omega) ha.2
    exact ⟨m'', by rw [Camera.setCrops, hx, ok_bind, setIdx_lt (by omega), ok_bind, h1], h2⟩

/-- The camera has room for a matrix and for crops. -/
def Sized (c : Camera) : Prop := IsGrid 4 3 c.xyzToCam ∧ c.crops.length = 4

def Updated (x : M Camera) : Prop := ∃ c, x = .ok c ∧ Sized c

theorem ite_updated {p : Prop} [Decidable p] {a b : Bool} {x y : M Camera} (h : (if p then a else b) = true) (h1 : a = true → Updated x)
    (h2 : b = true → Updated y) : Updated (if p then x else y) := by
  by_cases hp : p
  · rw [if_pos hp] at h ⊢; exact h1 h
  · rw [if_neg hp] at h ⊢; exact h2 h

theorem updated_bind {α : Type} {m : M α} {f : α → Camera} (h : ∃ s, m = .ok s) (hf : ∀ s, Sized (f s)) : Updated (m >>= fun s => .ok (f s)) := by
  obtain ⟨s, hs⟩ := h
  exact ⟨f s, by rw [hs, ok_bind], hf s⟩

theorem mapM_total {α β : Type} {f : α → M β} : ∀ {l : List α}, (∀ x ∈ l, ∃ y, f x = .ok y) → ∃ r, l.mapM f = .ok r := by
  intro l
  induction l with
  | nil => exact fun _ => ⟨[], rfl⟩
  | cons a l ih =>
    intro h
    obtain ⟨y, hy⟩ := h a (by simp)
    obtain ⟨r, hr⟩ := ih fun x hx => h x (by simp [hx])
    exact ⟨y :: r, by rw [List.mapM_cons, hy, ok_bind, hr, ok_bind]; rfl⟩

theorem keyOk_ok {c : Camera} {k : Bytes} {v : Toml} (hc : Sized c) (h : keyOk k v = true) : Updated (c.setKey k v) := by
  unfold keyOk at h
  unfold Camera.setKey
  iterate 5
    refine ite_updated h (fun h => ?_) fun h => ?_
    · exact updated_bind (isStr_ok h) fun _ => hc
  iterate 2
    refine ite_updated h (fun h => ?_) fun h => ?_
    · exact updated_bind (isInt_ok h) fun _ => hc
  iterate 2
    refine ite_updated h (fun h => ?_) fun h => ?_
    · exact updated_bind (pair_ok h) fun _ => hc
  refine ite_updated h (fun h => ?_) fun h => ?_
  · match v, h with
    | .arr l, h =>
      simp only [Bool.and_eq_true, decide_eq_true_eq] at h
      obtain ⟨m, h1, h2⟩ := setMatrix_total l 0 _ hc.1 (by omega) h.2
      refine ⟨{ c with xyzToCam := m }, ?_, h2, hc.2⟩
      rw [show (Toml.arr l).asArr = .ok l from rfl, ok_bind, h1, ok_bind]
  refine ite_updated h (fun h => ?_) fun h => ?_
  · match v, h with
    | .arr l, h =>
      simp only [Bool.and_eq_true, decide_eq_true_eq] at h
      obtain ⟨m, h1, h2⟩ := setCrops_total l 0 _ hc.2 (by omega) h.2
      refine ⟨{ c with crops := m }, ?_, hc.1, h2⟩
      rw [show (Toml.arr l).asArr = .ok l from rfl, ok_bind, h1, ok_bind]
  refine ite_updated h (fun h => ?_) fun h => ?_
  · match v, h with
    | .str s, h =>
      simp only [Bool.and_eq_true, Bool.or_eq_true, decide_eq_true_eq, List.all_eq_true, List.contains_eq_mem] at h
      obtain ⟨cfa, hcfa⟩ := (Props.cfa_accepts s).1.mpr ⟨by omega, fun c hc => h.2 c hc⟩
      refine ⟨{ c with cfa := cfa }, ?_, hc⟩
      rw [show (Toml.str s).asStr = .ok s from rfl, ok_bind, hcfa, ok_bind]
  iterate 5
    refine ite_updated h (fun h => ?_) fun h => ?_
    · exact updated_bind (isInt_usize h) fun _ => hc
  refine ite_updated h (fun h => ?_) fun h => ?_
  · match v, h with
    | .arr l, h =>
      obtain ⟨r, hr⟩ := mapM_total (f := Toml.asStr) (l := l) fun x hx => isStr_ok (List.all_eq_true.mp h x hx)
      refine ⟨{ c with hints := r }, ?_, hc⟩
      rw [show (Toml.arr l).asArr = .ok l from rfl, ok_bind, hr, ok_bind]
  exact ⟨c, rfl, hc⟩

theorem update_ok : ∀ {t : Table} {c : Camera}, Sized c → tableOk t = true → ∃ c', c.updateFromToml t = .ok c' ∧ Sized c' := by
  intro t
  unfold Camera.updateFromToml
  induction t with
  | nil => exact fun {c} hc _ => ⟨c, rfl, hc⟩
  | cons p t ih =>
    intro c hc h
    rw [tableOk, List.all_cons, Bool.and_eq_true] at h
    obtain ⟨c', h1, h2⟩ := keyOk_ok hc h.1
    obtain ⟨c'', h3, h4⟩ := ih h2 h.2
    exact ⟨c'', by rw [List.foldlM_cons, h1, ok_bind, h3], h4⟩

theorem aliasOk_ok {v : Toml} (h : aliasOk v = true) : ∃ p, RawLoader.aliasOf v = .ok p := by
  unfold aliasOk at h
  split at h
  · exact ⟨_, rfl⟩
  · cases h

theorem expand_total {t : Table} (h1 : tableOk t = true) (h2 : modesOk t = true) (h3 : aliasesOk t = true) :
    ∃ l, RawLoader.expand (.table t) = .ok l := by
  obtain ⟨cfa, -, hnew⟩ := Camera.new_ok
  have hmodes : ∃ ms, RawLoader.modesOf t = .ok ms ∧ ∀ m ∈ ms, tableOk m = true := by
    unfold modesOk at h2
    unfold RawLoader.modesOf
    split at h2
    · rename_i h; rw [h]; exact ⟨[t], rfl, by simpa using h1⟩
    · rename_i l h
      rw [h]
      have hm : l.mapM Toml.asTable = .ok (l.map tableOf) := by
        apply mapM_ok
        intro x hx
        have := List.all_eq_true.mp h2 x hx
        cases x <;> first | rfl | cases this
      refine ⟨t :: l.map tableOf, ?_, ?_⟩
      · show ((Toml.arr l).asArr >>= _) = _
        rw [show (Toml.arr l).asArr = .ok l from rfl, ok_bind, hm, ok_bind]
      · intro m hm
        rcases List.mem_cons.mp hm with rfl | hm
        · exact h1
        · obtain ⟨x, hx, rfl⟩ := List.mem_map.mp hm
          have := List.all_eq_true.mp h2 x hx
          cases x <;> first | exact this | cases this
    · cases h2
  obtain ⟨ms, hms, hall⟩ := hmodes
  obtain ⟨c0, hnew, hs⟩ : ∃ c0, Camera.new = .ok c0 ∧ Sized c0 := ⟨_, hnew, ⟨rfl, by simp⟩, rfl⟩
  obtain ⟨cam, hcam, hsc⟩ := update_ok hs h1
  have hnames : ∃ ns, RawLoader.namesOf cam t = .ok ns := by
    unfold aliasesOk at h3
    unfold RawLoader.namesOf
    split at h3
    · rename_i h; rw [h]; exact ⟨_, rfl⟩
    · rename_i l h
      rw [h]
      obtain ⟨r, hr⟩ := mapM_total (f := RawLoader.aliasOf) (l := l) fun x hx => aliasOk_ok (List.all_eq_true.mp h3 x hx)
      refine ⟨(cam.model, cam.cleanModel) :: r, ?_⟩
      show ((Toml.arr l).asArr >>= _) = _
      rw [show (Toml.arr l).asArr = .ok l from rfl, ok_bind, hr, ok_bind]
    · cases h3
  obtain ⟨ns, hns⟩ := hnames
  unfold RawLoader.expand
  rw [show (Toml.table t).asTable = .ok t from rfl, ok_bind, hms, ok_bind, hnew, ok_bind, hcam, ok_bind, hns, ok_bind]
  obtain ⟨r, hr⟩ := mapM_total (l := ns) (f := fun (n : Bytes × Bytes) => ms.mapM fun t => do
    let mcam ← cam.updateFromToml t
    Except.ok { mcam with model := n.1, cleanModel := n.2 }) (fun n _ => mapM_total fun m hm => by
      obtain ⟨c', hc', -⟩ := update_ok hsc (hall m hm)
      exact ⟨_, by rw [hc', ok_bind]⟩)
  exact ⟨r.flatten, by rw [hr, ok_bind]⟩

theorem distinct_ok : ∀ {l : List Bytes}, distinct l = true → l.Nodup := by
  intro l
  induction l with
  | nil => simp
  | cons k ks ih =>
    intro h
    rw [distinct, Bool.and_eq_true, List.all_eq_true] at h
    refine List.nodup_cons.mpr ⟨fun hk => ?_, ih h.2⟩
    have := h.1 k hk
    simp at this

/-- The numbers are different; `seen` has the bits of those before. -/
def fresh : List Nat → Nat → Bool
  | [], _ => true
  | x :: xs, seen => (seen >>> x) % 2 = 0 && force (seen ||| 1 <<< x) fun seen => fresh xs seen

theorem force_eq {α : Type} (n : Nat) (k : Nat → α) : force n k = k n := by cases n <;> rfl

theorem fresh_ok : ∀ {l : List Nat} {seen : Nat}, fresh l seen = true → l.Nodup ∧ ∀ x ∈ l, seen.testBit x = false := by
  intro l
  induction l with
  | nil => simp
  | cons x xs ih =>
    intro seen h
    rw [fresh, force_eq, Bool.and_eq_true, decide_eq_true_eq] at h
    obtain ⟨h1, h2⟩ := ih h.2
    have hx : seen.testBit x = false := by
      rw [Nat.testBit_eq_decide_div_mod_eq, ← Nat.shiftRight_eq_div_pow, h.1]; rfl
    refine ⟨List.nodup_cons.mpr ⟨fun hm => ?_, h1⟩, fun y hy => ?_⟩
    · have := h2 x hm
      rw [Nat.testBit_or, Nat.one_shiftLeft, Nat.testBit_two_pow_self, Bool.or_true] at this
      cases this
    · rcases List.mem_cons.mp hy with rfl | hy
      · exact hx
      · have := h2 y hy
        rw [Nat.testBit_or, Bool.or_eq_false_iff] at this
        exact this.1

/-- What a checked table is like. -/
structure Checked (t : Table) : Prop where
  expands : ∃ l, RawLoader.expand (.table t) = .ok l
  keys : ∀ m ∈ modesIn t, (m.map Prod.fst).Nodup
  levels : ∀ v ∈ variantsIn t, goodLevels v = true
  matrices : ∀ v ∈ variantsIn t, goodEntries (entries v) = true
  naked : ∀ v ∈ variantsIn t, goodNaked v = true

/-- The names of a table that no other has. -/
def ownNames (t : Table) : List (Bytes × Bytes × Bytes) := ((variantsIn t).map Variant.key).filter (fun k => !sharedNames.contains k)

/-- The sizes of headerless files. -/
def ownSizes (t : Table) : List Nat := ((variantsIn t).map Variant.filesize).filter (0 < ·)

theorem goodMatrix_ok {ms : List (List Int)} (hms : ms.all goodEntries = true) {ix : List Nat} {v : Variant} (h : goodMatrix ms ix v = true) :
    goodEntries (entries v) = true := by
  obtain ⟨n, -, hn⟩ := List.any_eq_true.mp h
  rw [decide_eq_true_eq] at hn
  rw [List.all_eq_true] at hms
  apply hms
  rw [← hn, List.getD_eq_getElem?_getD]
  cases hg : ms[n]? with
  | some l => exact List.mem_of_getElem? hg
  | none =>
    rw [List.getD_eq_getElem?_getD, hg] at hn
    have := congrArg List.length hn
    unfold entries at this
    simp at this

theorem goodTable_ok {ms : List (List Int)} (hms : ms.all goodEntries = true) {t : Table} {hs sizes ix : List Nat} (h : goodTable ms t hs sizes ix = true) :
    Checked t ∧ (ownNames t).map hash = hs ∧ ownSizes t = sizes := by
  simp only [goodTable, Bool.and_eq_true, List.all_eq_true, decide_eq_true_eq] at h
  obtain ⟨⟨⟨⟨h1, h2⟩, h3⟩, h4⟩, ⟨⟨⟨h5, h6⟩, h7⟩, h8⟩, h9⟩ := h
  exact ⟨⟨expand_total h1 h2 h3, fun m hm => distinct_ok (h4 m hm), h5, fun v hv => goodMatrix_ok hms (h6 v hv), h7⟩, h8, h9⟩

/-- The files are checked, and the numbers are theirs. -/
def FilesChecked (fs : List Nat) (hs : List Row) : Prop :=
  ∃ ts : List Table, fs.map readFile = ts.map some ∧ (∀ t ∈ ts, Checked t) ∧ (ts.flatMap ownNames).map hash = hs.flatMap Prod.fst ∧
    ts.flatMap ownSizes = hs.flatMap fun h => h.2.1

theorem goodFiles_ok {ms : List (List Int)} (hms : ms.all goodEntries = true) : ∀ {fs : List Nat} {hs : List Row}, goodFiles ms fs hs = true → FilesChecked fs hs := by
  intro fs
  induction fs with
  | nil => intro hs h; cases hs with | nil => exact ⟨[], rfl, by simp, rfl, rfl⟩ | cons _ _ => cases h
  | cons f fs ih =>
    intro hs h
    cases hs with
    | nil => cases h
    | cons x hs =>
      rw [goodFiles, Bool.and_eq_true, goodFile] at h
      obtain ⟨hf, h⟩ := h
      obtain ⟨ts, h1, h2, h3, h4⟩ := ih h
      split at hf
      · rename_i t ht
        obtain ⟨g1, g2, g3⟩ := goodTable_ok hms hf
        refine ⟨t :: ts, by simp [ht, h1], ?_, ?_, ?_⟩
        · intro u hu
          rcases List.mem_cons.mp hu with rfl | hu
          · exact g1
          · exact h2 u hu
        · rw [List.flatMap_cons, List.map_append, g2, h3, List.flatMap_cons]
        · rw [List.flatMap_cons, g3, h4, List.flatMap_cons]
      · cases hf

theorem FilesChecked.append {fs fs' : List Nat} {hs hs' : List Row} (h : FilesChecked fs hs) (h' : FilesChecked fs' hs') : FilesChecked (fs ++ fs') (hs ++ hs') := by
  obtain ⟨ts, h1, h2, h3, h4⟩ := h
  obtain ⟨ts', g1, g2, g3, g4⟩ := h'
  refine ⟨ts ++ ts', by simp [h1, g1], ?_, by simp [List.flatMap_append, h3, g3], by simp [List.flatMap_append, h4, g4]⟩
  intro t ht
  rcases List.mem_append.mp ht with ht | ht
  · exact h2 t ht
  · exact g2 t ht

end Shipped
