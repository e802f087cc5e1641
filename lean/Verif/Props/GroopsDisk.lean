import Verif.Model.GroopsDisk
import Verif.Spec.GroopsDisk
import Verif.Props.GroopsFiles
import Verif.Props.IcgemHeader
import Verif.Props.Tide
/-
C88: an ocean tide model from its files.
-/
namespace Verif.Groops
open Verif Verif.Doodson Verif.Tide Verif.Chars Verif.Icgem Verif.Icgem.Head

variable {T : Type}

/-! ### One gravity file -/

theorem total_static (fac : List (Record T) → Record T → ℝ) (val : Record T → ℚ) (n m : Int) (rs : List (Record T))
    (h : ∀ r ∈ rs, ∀ before, fac before r = 1) :
    total fac val rs n m = ((rs.filter fun r => r.n = n ∧ r.m = m).map fun r => (val r : ℝ)).sum := by
  induction rs using List.reverseRecOn with
  | nil => simp [total_nil]
  | append_singleton rs r ih =>
    rw [total_snoc, ih fun r hr => h r (by simp [hr]), List.filter_append, List.map_append, List.sum_append]
    by_cases hc : r.n = n ∧ r.m = m
    · simp [hc, h r (by simp)]
    · simp [hc]

variable [LinearOrder T] {cal : Cal T} {disk : List Int → Option (List Char)} {junkErr : ErrorModel} {junkE : Entry T}
  {junk : Nat → Nat → ℝ} {md mo : Int}

/-- What has been read from the file `g`. -/
structure IsRead (g : Gfc T) (md mo : Int) (c : Coeffs ℝ) : Prop where
  rows : (c.rows : Int) = g.degree md + 1
  C : ∀ a b : Nat, b ≤ a → (a : Int) ≤ g.degree md → c.C a b = g.value md mo Record.C a b
  S : ∀ a b : Nat, b ≤ a → (a : Int) ≤ g.degree md → c.S a b = g.value md mo Record.S a b
  deg : c.deg ≤ g.degree md
  reach : c.deg = g.degree md ↔ g.Reaches md mo ∨ g.degree md = 0
  gm : c.gm = (g.gm : ℚ)
  re : c.re = (g.radius : ℚ)
  ord : g.Full md mo → g.degree md ≤ c.ord

theorem isRead_of {g : Gfc T} {h : Header} {fac : List (Record T) → Record T → ℝ} {used : Record T → Prop} {c : Coeffs ℝ}
    (hg : g.Ok cal md mo) (hf : ∀ r ∈ g.records, ∀ before, fac before r = 1)
    (hu : ∀ r ∈ g.records, used r ↔ Within (g.degree md) (g.order md mo) r)
    (hr : Result h (g.degree md) (g.order md mo) fac used g.records c) (hgm : h.gm = (g.gm : ℚ)) (hre : h.re = (g.radius : ℚ)) :
    IsRead g md mo c := by
  have hhas : ∀ a b : Nat, b ≤ a → (a : Int) ≤ g.degree md → c.Has a b := fun a b hb ha =>
    ⟨by omega, by omega, by have := hr.rows; omega⟩
  obtain ⟨o1, o2⟩ := hg.order
  obtain ⟨l1, l2⟩ := hr.deg
  have hle : c.deg ≤ g.degree md := by
    rcases l2 with ⟨r, hr, hu', e⟩ | ⟨e, -⟩
    · rw [← e]; exact ((hu r hr).mp hu').1
    · omega
  refine ⟨hr.rows, ?_, ?_, hle, ?_, hr.gm.trans hgm, hr.re.trans hre, fun ⟨r, hr', e1, e2, e3⟩ => ?_⟩
  rotate_left 3
  · have := hr.ord.1 r hr' ((hu r hr').mpr ⟨e1.le, e3⟩)
    omega
  · intro a b hb ha
    unfold Gfc.value
    split_ifs with ho
    · have := hr.C a b hb ha ho
      unfold Coeffs.getC at this
      rw [if_pos (hhas a b hb ha), total_static fac _ _ _ _ hf] at this
      simpa using this
    · have := (hr.zero a b (by omega) hb ha).1
      unfold Coeffs.getC at this
      rw [if_pos (hhas a b hb ha)] at this
      simpa using this
  · intro a b hb ha
    unfold Gfc.value
    split_ifs with ho
    · have := hr.S a b hb ha ho
      unfold Coeffs.getS at this
      rw [if_pos (hhas a b hb ha), total_static fac _ _ _ _ hf] at this
      simpa using this
    · have := (hr.zero a b (by omega) hb ha).2
      unfold Coeffs.getS at this
      rw [if_pos (hhas a b hb ha)] at this
      simpa using this
  · constructor
    · intro e
      rcases l2 with ⟨r, hr, hu', e'⟩ | ⟨e', -⟩
      · exact Or.inl ⟨r, hr, e'.trans e, ((hu r hr).mp hu').2⟩
      · exact Or.inr (by omega)
    · rintro (⟨r, hr', e1, e2⟩ | e)
      · have := l1 r hr' ((hu r hr').mpr ⟨e1.le, e2⟩)
        omega
      · rcases l2 with ⟨r, hr', hu', e'⟩ | ⟨e', -⟩
        · have hw := (hu r hr').mp hu'
          have := hg.triangle r hr' hw.1 hw.2
          omega
        · omega

/-- A file that is well formed is read. -/
theorem readGfc_ok (hcal : cal.min < cal.max) {g : Gfc T} (hg : g.Ok cal md mo) {path : List Int} (hp : disk path = some g.text)
    (co : Coeffs ℝ) : ∃ c, readGfc cal disk junkErr junkE junk md mo path co = .ok (0, c) ∧ IsRead g md mo c := by
  have e : readGfc cal disk junkErr junkE junk md mo path co =
      readFile cal (some g.text) junkErr (junkE, junk) md mo cal.min co := by
    unfold readGfc readFile Gfc.text
    rw [hp]
    unfold Gfc.text
    rw [header_read_partial hg.header hg.short g.tail _ hg.tail.1 hg.tail.2]
    simp only [Res.bind]
    rw [if_neg (by have := hg.name; omega)]
  rw [e]
  have hreq : asked (said g.settings g.errors) md mo = (g.degree md, g.order md mo) := rfl
  have hn := hg.order
  by_cases hv : lastOf Setting.format? false g.settings = true
  · have hl := hg.lines
    rw [if_pos hv] at hl
    obtain ⟨c, e1, e2⟩ := file_read2_partial cal junkErr (junkE, junk) cal.min co hg.header hg.short hg.errors hg.one g.tail hg.tail.1
      hg.tail.2 hv (le_refl _) hcal hreq hn.1 hn.2 hg.degree hl (fun r hr hw => hg.triangle r hr hw.1 hw.2)
      (fun r hr p hp => by rw [hg.static r hr] at hp; rcases hp with h | h <;> cases h)
    refine ⟨c, e1, isRead_of hg (fun r hr b => ?_) (fun r hr => ?_) e2 rfl rfl⟩
    · unfold factor2; rw [hg.static r hr]
    · unfold Used2; exact ⟨fun h => h.1, fun h => ⟨h, Or.inl (hg.static r hr)⟩⟩
  · have hl := hg.lines
    rw [if_neg hv] at hl
    obtain ⟨c, e1, e2⟩ := file_read1_partial cal junkErr (junkE, junk) cal.min co hg.header hg.short hg.errors hg.one g.tail hg.tail.1
      hg.tail.2 (by simpa using hv) hreq hn.1 hn.2 hg.degree hl (fun r hr hw => hg.triangle r hr hw.1 hw.2)
      (fun r hr p hp => by rw [hg.static r hr] at hp; rcases hp with h | h <;> cases h)
      (fun i r hi _ hk => absurd (hg.static r (List.mem_of_getElem? hi)) hk)
    refine ⟨c, e1, isRead_of hg (fun r hr b => ?_) (fun r hr => Iff.rfl) e2 rfl rfl⟩
    unfold factor1; rw [hg.static r hr]

/-! ### The atlas -/

section
variable {read : List Int → Coeffs ℝ → Res (Nat × Coeffs ℝ)} {dir : List Int} {n m : Int}

/-- One file of a new wave, any request. -/
theorem addFile_first {f : List Int} {b : Build} {i : Name} (P : Coeffs ℝ → Prop) (hb : 0 ≤ b.deg) (hp : parse f = .ok i)
    (hf : find b.atlas i.d = b.atlas.length) (hl : dir.length + f.length ≤ 246)
    (hr : ∀ c, ∃ c', read (dir ++ 47 :: f) c = .ok (0, c') ∧ P c') :
    ∃ c0 c b', addFile junk read dir n m f b = .ok b' ∧ P c ∧ 0 ≤ b'.deg ∧
      b'.atlas = b.atlas ++ [if i.sinCos = 115 then ⟨i.d, c0, c⟩ else ⟨i.d, c, c0⟩] := by
  set n1 := (if n < 0 then b.deg else n) with hn1
  set m1 := (if m < 0 then b.ord else m) with hm1
  have hn1' : ¬ n1 < -1 := by rw [hn1]; split_ifs <;> omega
  set c0 : Coeffs ℝ := ⟨n1, if m1 > 0 then m1 else n1, (n1 + 1).toNat, junk, junk, 3.986004418e14, 6378136.6, true⟩ with hc0
  have he : ensureWave junk b.atlas i.d n1 m1 = .ok (b.atlas ++ [⟨i.d, c0, c0⟩]) := by
    unfold ensureWave appendNew Constituent.make newSet
    rw [if_pos hf, if_neg (by simpa using hf), if_neg hn1']
    rfl
  obtain ⟨c, hc, hP⟩ := hr c0
  refine ⟨c0, c, ⟨b.atlas ++ [if i.sinCos = 115 then ⟨i.d, c0, c⟩ else ⟨i.d, c, c0⟩],
    if b.deg < c.deg then c.deg else b.deg, if b.ord < c.ord then c.ord else b.ord⟩, ?_, hP, ?_, rfl⟩
  · unfold addFile
    simp only [hp, Res.bind]
    rw [← hn1, ← hm1, he]
    simp only
    rw [if_neg (by omega), hf, List.getElem?_append_right (le_refl _), Nat.sub_self, List.getElem?_cons_zero]
    simp only [ite_self, hc, ne_eq, not_true, if_false]
    rw [List.set_append_right _ _ (le_refl _), Nat.sub_self, List.set_cons_zero]
  · simp only; split_ifs <;> omega

/-- One file of a wave whose other part has been read, any request. -/
theorem addFile_second {f : List Int} {b : Build} {a : Atlas} {w : Constituent} {i : Name} (P : Coeffs ℝ → Prop) (hd : 0 ≤ b.deg)
    (hp : parse f = .ok i) (hb : b.atlas = a ++ [w]) (hf : find b.atlas i.d = a.length) (hl : dir.length + f.length ≤ 246)
    (hr : ∀ c, ∃ c', read (dir ++ 47 :: f) c = .ok (0, c') ∧ P c') :
    ∃ c b', addFile junk read dir n m f b = .ok b' ∧ P c ∧ 0 ≤ b'.deg ∧
      b'.atlas = a ++ [if i.sinCos = 115 then { w with sin := c } else { w with cos := c }] := by
  obtain ⟨c, hc, hP⟩ := hr (if i.sinCos = 115 then w.sin else w.cos)
  have hlen : b.atlas.length = a.length + 1 := by rw [hb]; simp
  have he : ∀ n m, ensureWave junk b.atlas i.d n m = .ok b.atlas := by
    intro n m
    unfold ensureWave
    rw [if_neg (by omega)]
  refine ⟨c, ⟨a ++ [if i.sinCos = 115 then { w with sin := c } else { w with cos := c }],
    if b.deg < c.deg then c.deg else b.deg, if b.ord < c.ord then c.ord else b.ord⟩, ?_, hP, ?_, rfl⟩
  · unfold addFile
    simp only [hp, Res.bind]
    rw [he]
    simp only
    rw [if_neg (by omega), hf, hb, List.getElem?_append_right (le_refl _), Nat.sub_self, List.getElem?_cons_zero]
    simp only [hc, ne_eq, not_true, if_false]
    rw [List.set_append_right _ _ (le_refl _), Nat.sub_self, List.set_cons_zero]
  · simp only; split_ifs <;> omega

theorem find_append (D : DC) (l : Atlas) : ∀ a : Atlas, (∀ w ∈ a, w.d ≠ D) → find (a ++ l) D = a.length + find l D := by
  intro a h
  induction a with
  | nil => simp
  | cons w ws ih =>
    rw [List.cons_append, find, if_neg (by rw [eq_iff]; exact h w (by simp)), ih fun v hv => h v (by simp [hv]), List.length_cons]
    omega

/-- Both files of a new wave. -/
theorem addFile_pair {f1 f2 : List Int} {b : Build} {i1 i2 : Name} (t : Trig) (D : DC) (P : Trig → Coeffs ℝ → Prop) (hb : 0 ≤ b.deg)
    (hp1 : parse f1 = .ok i1) (hp2 : parse f2 = .ok i2) (hd1 : i1.d = D) (hd2 : i2.d = D) (hs1 : i1.sinCos = t.letter)
    (hs2 : i2.sinCos = t.other.letter) (hf : ∀ w ∈ b.atlas, w.d ≠ D) (hl1 : dir.length + f1.length ≤ 246)
    (hl2 : dir.length + f2.length ≤ 246) (hr1 : ∀ c, ∃ c', read (dir ++ 47 :: f1) c = .ok (0, c') ∧ P t c')
    (hr2 : ∀ c, ∃ c', read (dir ++ 47 :: f2) c = .ok (0, c') ∧ P t.other c') :
    ∃ c s b1 b', addFile junk read dir n m f1 b = .ok b1 ∧ addFile junk read dir n m f2 b1 = .ok b' ∧ P .cos c ∧ P .sin s ∧ 0 ≤ b'.deg ∧
      b'.atlas = b.atlas ++ [⟨D, c, s⟩] := by
  subst hd1
  obtain ⟨c0, c, b1, e1, p1, q1, r1⟩ := addFile_first (junk := junk) (n := n) (m := m) (P t) hb hp1 ((find_eq_length _ _).mpr hf) hl1 hr1
  have hf2 : find b1.atlas i2.d = b.atlas.length := by
    rw [hd2, r1, find_append _ _ _ hf]
    have : (if i1.sinCos = 115 then (⟨i1.d, c0, c⟩ : Constituent) else ⟨i1.d, c, c0⟩).d = i1.d := by split_ifs <;> rfl
    unfold find
    rw [if_pos ((eq_iff _ _).mpr this)]
    rfl
  obtain ⟨c', b', e2, p2, q2, r2⟩ := addFile_second (junk := junk) (n := n) (m := m) (P t.other) q1 hp2 r1 hf2 hl2 hr2
  cases t with
  | sin =>
    rw [if_neg (show ¬ i2.sinCos = 115 by rw [hs2]; decide), if_pos (show i1.sinCos = 115 by rw [hs1]; rfl)] at r2
    exact ⟨c', c, b1, b', e1, e2, p2, p1, q2, r2⟩
  | cos =>
    rw [if_pos (show i2.sinCos = 115 by rw [hs2]; rfl), if_neg (show ¬ i1.sinCos = 115 by rw [hs1]; decide)] at r2
    exact ⟨c, c', b1, b', e1, e2, p1, p2, q2, r2⟩

end

/-- What the atlas holds of a wave. -/
structure HoldsWave (md mo : Int) (c : Constituent) (w : Wave T) : Prop where
  d : c.d = { w.d with pifac := 0 }
  cos : IsRead w.cos md mo c.cos
  sin : IsRead w.sin md mo c.sin

theorem sameMultipliers_of {a b : DC} (h : ({ a with pifac := 0 } : DC) = { b with pifac := 0 }) : SameMultipliers a b := by
  simp only [DC.mk.injEq] at h
  exact ⟨h.1, h.2.1, h.2.2.1, h.2.2.2.1, h.2.2.2.2.1, h.2.2.2.2.2.1⟩

theorem canonical_length {fn fn' m w : List Int} {d : DC} {t t' : Trig} (h : Canonical fn m d w t) (h' : Canonical fn' m d w t') :
    fn.length = fn'.length := by
  obtain ⟨s, ⟨_, _, _, _, _, _, hs, -⟩, -, -, rfl⟩ := h
  obtain ⟨s', ⟨_, _, _, _, _, _, hs', -⟩, -, -, rfl⟩ := h'
  have e : s.length = s'.length := by
    have h1 := congrArg List.length hs
    have h2 := congrArg List.length hs'
    simp only [fold, List.length_map, List.length_cons, List.length_nil] at h1 h2
    omega
  simp only [List.length_append, trig_length, e]

section
variable {dir : List Int}

theorem wave_step (hcal : cal.min < cal.max) {w : Wave T} (hw : w.Stored cal disk dir md mo) {f1 f2 : List Int}
    (hn : (f1, f2) = (w.cosName, w.sinName) ∨ (f1, f2) = (w.sinName, w.cosName)) {b : Build} (hb : 0 ≤ b.deg)
    (hf : ∀ c ∈ b.atlas, c.d ≠ { w.d with pifac := 0 }) :
    ∃ c b1 b', addFile junk (readGfc cal disk junkErr junkE junk md mo) dir md mo f1 b = .ok b1 ∧
      addFile junk (readGfc cal disk junkErr junkE junk md mo) dir md mo f2 b1 = .ok b' ∧ 0 ≤ b'.deg ∧ b'.atlas = b.atlas ++ [c] ∧
      HoldsWave md mo c w := by
  have hsl : ∀ f : List Int, dir ++ bytes "/" ++ f = dir ++ 47 :: f := by
    intro f
    rw [show bytes "/" = [47] from by decide +kernel]
    simp
  have pc := parse_complete (canonical_fileName hw.names.1) hw.lengths.1.le hw.lengths.2.le
  have ps := parse_complete (canonical_fileName hw.names.2) hw.lengths.1.le hw.lengths.2.le
  have hlen := canonical_length hw.names.1 hw.names.2
  have hpath := hw.paths
  set P : Trig → Coeffs ℝ → Prop := fun t c => match t with
    | .cos => IsRead w.cos md mo c
    | .sin => IsRead w.sin md mo c with hP
  have rc := readGfc_ok (junkErr := junkErr) (junkE := junkE) (junk := junk) hcal hw.cosOk (hsl _ ▸ hw.cosFile)
  have rs := readGfc_ok (junkErr := junkErr) (junkE := junkE) (junk := junk) hcal hw.sinOk (hsl _ ▸ hw.sinFile)
  rcases hn with hn | hn
  · simp only [Prod.mk.injEq] at hn
    obtain ⟨rfl, rfl⟩ := hn
    obtain ⟨c, s, b1, b', e1, e2, p1, p2, q, r⟩ := addFile_pair (junk := junk) (n := md) (m := mo) .cos _ P hb pc ps rfl rfl rfl rfl hf
      hpath (by omega) rc rs
    exact ⟨_, b1, b', e1, e2, q, r, ⟨rfl, p1, p2⟩⟩
  · simp only [Prod.mk.injEq] at hn
    obtain ⟨rfl, rfl⟩ := hn
    obtain ⟨c, s, b1, b', e1, e2, p1, p2, q, r⟩ := addFile_pair (junk := junk) (n := md) (m := mo) .sin _ P hb ps pc rfl rfl rfl rfl hf
      (by omega) hpath rs rc
    exact ⟨_, b1, b', e1, e2, q, r, ⟨rfl, p1, p2⟩⟩

theorem build_waves (hcal : cal.min < cal.max) {waves : List (Wave T)} {ns : List (List Int × List Int)}
    (hn : List.Forall₂ (fun n (w : Wave T) => n = (w.cosName, w.sinName) ∨ n = (w.sinName, w.cosName)) ns waves) :
    ∀ b : Build, (∀ w ∈ waves, w.Stored cal disk dir md mo) → waves.Pairwise (fun w w' => ¬ SameMultipliers w.d w'.d) → 0 ≤ b.deg →
    (∀ w ∈ waves, ∀ c ∈ b.atlas, c.d ≠ { w.d with pifac := 0 }) →
    ∃ b' L, forEach (ns.flatMap fun n => [n.1, n.2]) (addFile junk (readGfc cal disk junkErr junkE junk md mo) dir md mo) b = .ok b' ∧
      b'.atlas = b.atlas ++ L ∧ List.Forall₂ (HoldsWave md mo) L waves := by
  induction hn with
  | nil => intro b _ _ _ _; exact ⟨b, [], rfl, by simp, .nil⟩
  | cons h hs ih =>
    rename_i n w ns' ws
    intro b hst hdis hb hf
    obtain ⟨c, b1, b2, e1, e2, q, r, hw⟩ := wave_step (junk := junk) (junkErr := junkErr) (junkE := junkE) hcal (hst w (by simp))
      (f1 := n.1) (f2 := n.2) h hb (hf w (by simp))
    rw [List.pairwise_cons] at hdis
    obtain ⟨b', L, e3, r', hL⟩ := ih b2 (fun w hw => hst w (by simp [hw])) hdis.2 q (by
      intro v hv c' hc'
      rw [r, List.mem_append, List.mem_singleton] at hc'
      rcases hc' with hc' | rfl
      · exact hf v (by simp [hv]) c' hc'
      · rw [hw.d]
        exact fun e => hdis.1 v hv (sameMultipliers_of e))
    refine ⟨b', c :: L, ?_, by rw [r', r]; simp, .cons hw hL⟩
    rw [List.flatMap_cons]
    show forEach (n.1 :: n.2 :: _) _ b = _
    rw [forEach, e1]
    simp only [Res.bind]
    rw [forEach, e2]
    exact e3

theorem names_of {list : List (List Int)} {waves : List (Wave T)} (h : List.Forall₂ (fun line w => w.Listed line) list waves) :
    ∃ ns : List (List Int × List Int), List.Forall₂ (fun l n => l.length < 512 ∧ TwoWords l n.1 n.2) list ns ∧
      List.Forall₂ (fun n (w : Wave T) => n = (w.cosName, w.sinName) ∨ n = (w.sinName, w.cosName)) ns waves := by
  induction h with
  | nil => exact ⟨[], .nil, .nil⟩
  | cons h hs ih =>
    rename_i line w _ _
    obtain ⟨ns, h1, h2⟩ := ih
    rcases h.2 with g | g
    · exact ⟨(w.cosName, w.sinName) :: ns, .cons ⟨h.1, g⟩ h1, .cons (Or.inl rfl) h2⟩
    · exact ⟨(w.sinName, w.cosName) :: ns, .cons ⟨h.1, g⟩ h1, .cons (Or.inr rfl) h2⟩

theorem canonical_inj {fn m m' w w' : List Int} {d d' : DC} {t t' : Trig} (h : Canonical fn m d w t) (h' : Canonical fn m' d' w' t')
    (hm : m.length < 48) (hm' : m'.length < 48) (hw : w.length < 16) (hw' : w'.length < 16) : SameMultipliers d d' ∧ t = t' := by
  have e1 := parse_complete (canonical_fileName h) hm.le hw.le
  have e2 := parse_complete (canonical_fileName h') hm'.le hw'.le
  rw [e1] at e2
  simp only [Res.ok.injEq, Name.mk.injEq] at e2
  refine ⟨sameMultipliers_of e2.2.1, ?_⟩
  have := e2.2.2.2
  cases t <;> cases t' <;> first | rfl | (exact absurd this (by decide))

/-- The names of the list are all different. -/
theorem names_nodup {waves : List (Wave T)} {ns : List (List Int × List Int)}
    (hn : List.Forall₂ (fun n (w : Wave T) => n = (w.cosName, w.sinName) ∨ n = (w.sinName, w.cosName)) ns waves) :
    (∀ w ∈ waves, w.Stored cal disk dir md mo) → waves.Pairwise (fun w w' => ¬ SameMultipliers w.d w'.d) →
    (ns.flatMap fun n => [n.1, n.2]).Nodup ∧ ∀ f ∈ ns.flatMap fun n => [n.1, n.2], ∃ w ∈ waves, f = w.cosName ∨ f = w.sinName := by
  induction hn with
  | nil => intro _ _; simp
  | cons h hs ih =>
    rename_i n w ns' ws
    intro hst hdis
    rw [List.pairwise_cons] at hdis
    obtain ⟨i1, i2⟩ := ih (fun w hw => hst w (by simp [hw])) hdis.2
    have hw := hst w (by simp)
    have hne : w.cosName ≠ w.sinName := by
      intro e
      have := (canonical_inj hw.names.1 (e ▸ hw.names.2) hw.lengths.1 hw.lengths.1 hw.lengths.2 hw.lengths.2).2
      cases this
    have hout : ∀ f, f = w.cosName ∨ f = w.sinName → f ∉ ns'.flatMap fun n => [n.1, n.2] := by
      intro f hf hmem
      obtain ⟨v, hv, hvf⟩ := i2 f hmem
      have hv' := hst v (by simp [hv])
      have c1 : ∃ t, Canonical f w.model w.d w.name t := by
        rcases hf with rfl | rfl
        · exact ⟨_, hw.names.1⟩
        · exact ⟨_, hw.names.2⟩
      have c2 : ∃ t, Canonical f v.model v.d v.name t := by
        rcases hvf with rfl | rfl
        · exact ⟨_, hv'.names.1⟩
        · exact ⟨_, hv'.names.2⟩
      obtain ⟨t, c1⟩ := c1
      obtain ⟨t', c2⟩ := c2
      exact hdis.1 v hv (canonical_inj c1 c2 hw.lengths.1 hv'.lengths.1 hw.lengths.2 hv'.lengths.2).1
    rw [List.flatMap_cons]
    rcases h with rfl | rfl
    · refine ⟨?_, ?_⟩
      · rw [List.cons_append, List.cons_append, List.nil_append, List.nodup_cons, List.nodup_cons]
        exact ⟨by simp only [List.mem_cons, not_or]; exact ⟨hne, hout _ (Or.inl rfl)⟩, hout _ (Or.inr rfl), i1⟩
      · intro f hf
        simp only [List.cons_append, List.nil_append, List.mem_cons] at hf
        rcases hf with rfl | rfl | hf
        · exact ⟨w, by simp, Or.inl rfl⟩
        · exact ⟨w, by simp, Or.inr rfl⟩
        · obtain ⟨v, hv, g⟩ := i2 f hf
          exact ⟨v, by simp [hv], g⟩
    · refine ⟨?_, ?_⟩
      · rw [List.cons_append, List.cons_append, List.nil_append, List.nodup_cons, List.nodup_cons]
        exact ⟨by simp only [List.mem_cons, not_or]; exact ⟨hne.symm, hout _ (Or.inr rfl)⟩, hout _ (Or.inl rfl), i1⟩
      · intro f hf
        simp only [List.cons_append, List.nil_append, List.mem_cons] at hf
        rcases hf with rfl | rfl | hf
        · exact ⟨w, by simp, Or.inr rfl⟩
        · exact ⟨w, by simp, Or.inl rfl⟩
        · obtain ⟨v, hv, g⟩ := i2 f hf
          exact ⟨v, by simp [hv], g⟩

/-- The atlas is made and holds the waves in the order of the list. -/
theorem atlas_waves {list : List (List Int)} {waves : List (Wave T)} (h : StoredModel cal disk dir md mo list waves) :
    ∃ a, groopsAtlas junk (readGfc cal disk junkErr junkE junk md mo) (some list) dir md mo = .ok a ∧
      List.Forall₂ (HoldsWave md mo) a waves := by
  obtain ⟨ns, n1, n2⟩ := names_of h.listed
  obtain ⟨b', L, e, r, hL⟩ := build_waves (junk := junk) (junkErr := junkErr) (junkE := junkE) h.calendar n2
    ⟨[], if md < 0 then 120 else md, if mo < 0 then 120 else mo⟩ h.stored h.distinct (by simp only; split_ifs <;> omega) (by simp)
  refine ⟨b'.atlas, ?_, by rw [r]; exact hL⟩
  have hfl := fileList_partial list ns n1
  obtain ⟨nd, hm⟩ := names_nodup n2 h.stored h.distinct
  have hv : validate (ns.flatMap fun n => [n.1, n.2]) = .ok 0 := by
    unfold validate
    rw [if_pos nd]
    refine validateLoop_ok _ _ (fun _ h => h) fun f hf => ?_
    obtain ⟨w, hw, g⟩ := hm f hf
    have hs := h.stored w hw
    rcases g with rfl | rfl
    · exact ⟨_, _, _, _, hs.names.1, hs.lengths.1, hs.lengths.2⟩
    · exact ⟨_, _, _, _, hs.names.2, hs.lengths.1, hs.lengths.2⟩
  have hlen : (ns.flatMap fun n => [n.1, n.2]).length = 2 * ns.length := by
    clear * -
    induction ns with
    | nil => rfl
    | cons n ns ih => rw [List.flatMap_cons, List.length_append, ih]; simp; omega
  have hne : 0 < ns.length := by
    rw [n2.length_eq]
    exact List.length_pos_iff.mpr h.some
  unfold groopsAtlas
  simp only [hfl]
  rw [if_neg (by omega), if_neg (by omega), hv]
  simp only [Res.bind, ne_eq, not_true, if_false, e]

end

/-! ### C88 -/

theorem maxDegree_le {a : Atlas} {n : Int} (hn : 0 ≤ n) (h : ∀ c ∈ a, c.cos.deg ≤ n) : maxDegree a ≤ n := by
  unfold maxDegree
  have key : ∀ (a : Atlas) (x : Int), x ≤ n → (∀ c ∈ a, c.cos.deg ≤ n) → a.foldl (fun x w => max x w.cos.deg) x ≤ n := by
    intro a
    induction a with
    | nil => intro x hx _; exact hx
    | cons c a ih => intro x hx h; exact ih _ (max_le hx (h c (by simp))) fun c' hc' => h c' (by simp [hc'])
  exact key a 0 hn h

theorem maxDegree_ge {a : Atlas} {c : Constituent} (hc : c ∈ a) : c.cos.deg ≤ maxDegree a := (foldl_max_le _ a 0).2 c hc

theorem mem_of_forall₂ {α β : Type} {R : α → β → Prop} {a : List α} {b : List β} (h : List.Forall₂ R a b) :
    (∀ x ∈ a, ∃ y ∈ b, R x y) ∧ ∀ y ∈ b, ∃ x ∈ a, R x y := by
  induction h with
  | nil => simp
  | cons h _ ih =>
    constructor
    · intro x hx
      rcases List.mem_cons.mp hx with rfl | hx
      · exact ⟨_, by simp, h⟩
      · obtain ⟨y, hy, r⟩ := ih.1 x hx; exact ⟨y, by simp [hy], r⟩
    · intro y hy
      rcases List.mem_cons.mp hy with rfl | hy
      · exact ⟨_, by simp, h⟩
      · obtain ⟨x, hx, r⟩ := ih.2 y hy; exact ⟨x, by simp [hx], r⟩

theorem angle_pifac (d : DC) (g l l' F D Om : ℝ) : angle { d with pifac := 0 } g l l' F D Om = angle d g l l' F D Om := rfl

section
variable {dir : List Int} {list : List (List Int)} {waves : List (Wave T)} {n : Nat}

/-- Size of the atlas. -/
theorem atlas_size {a : Atlas} (ha : List.Forall₂ (HoldsWave md mo) a waves)
    (hn : ∀ w ∈ waves, w.cos.degree md = n ∧ w.sin.degree md = n) :
    SameSize a (n + 1) ∧ maxDegree a ≤ n ∧ ((∃ w ∈ waves, w.cos.Reaches md mo) → maxDegree a = n) := by
  have hle : maxDegree a ≤ n := maxDegree_le (by omega) fun c hc => by
    obtain ⟨w, hw, h⟩ := (mem_of_forall₂ ha).1 c hc
    have := h.cos.deg
    rw [(hn w hw).1] at this
    exact this
  refine ⟨fun c hc => ?_, hle, ?_⟩
  · obtain ⟨w, hw, h⟩ := (mem_of_forall₂ ha).1 c hc
    have h1 := h.cos.rows
    have h2 := h.sin.rows
    rw [(hn w hw).1] at h1
    rw [(hn w hw).2] at h2
    omega
  · rintro ⟨w, hw, hr⟩
    obtain ⟨c, hc, h⟩ := (mem_of_forall₂ ha).2 w hw
    have h1 := h.cos.reach.mpr (Or.inl hr)
    rw [(hn w hw).1] at h1
    have := maxDegree_ge hc
    omega

theorem sum_waves {a : Atlas} (ha : List.Forall₂ (HoldsWave md mo) a waves)
    (hn : ∀ w ∈ waves, w.cos.degree md = n ∧ w.sin.degree md = n) (g l l' F D Om : ℝ) {i j : Nat} (hij : j ≤ i) (hi : i ≤ n) :
    potential a (fun d => angle d g l l' F D Om) Coeffs.C i j =
      (waves.map fun w => w.at md mo Record.C (angle w.d g l l' F D Om) i j).sum ∧
    potential a (fun d => angle d g l l' F D Om) Coeffs.S i j =
      (waves.map fun w => w.at md mo Record.S (angle w.d g l l' F D Om) i j).sum := by
  unfold potential
  induction ha with
  | nil => simp
  | cons h hs ih =>
    rename_i c w a' ws
    obtain ⟨i1, i2⟩ := ih fun w hw => hn w (by simp [hw])
    obtain ⟨d1, d2⟩ := hn w (by simp)
    rw [List.map_cons, List.map_cons, List.map_cons, List.map_cons, List.sum_cons, List.sum_cons, List.sum_cons, List.sum_cons, i1, i2]
    have hang : angle c.d g l l' F D Om = angle w.d g l l' F D Om := by rw [h.d]; rfl
    unfold Wave.at
    simp only [hang]
    rw [h.cos.C i j hij (by omega), h.sin.C i j hij (by omega), h.cos.S i j hij (by omega), h.sin.S i j hij (by omega)]
    exact ⟨rfl, rfl⟩

/-- C88: from the files of a model without admittance, whose gravity files are all read to degree `n`, a model is made; after
any evaluations, at every epoch, every coefficient up to degree `n` is the sum over the waves of the cosine file's coefficient
times the cosine of the wave's angle plus the sine file's times the sine. Not covered (`_partial`): no cosine file has a record
of the degree asked for (`stored_degree_fails`), files of different degree (`stored_sizes_fails`), long model names
(`stored_name_fails`), and what the readers of names, lists and files do not accept. -/
theorem stored_ocean_partial (h : StoredModel cal disk dir md mo list waves)
    (hn : ∀ w ∈ waves, w.cos.degree md = n ∧ w.sin.degree md = n) (hreach : ∃ w ∈ waves, w.cos.Reaches md mo) :
    ∃ o, oceanModel cal disk junkErr junkE junk (some list) dir md mo = .ok o ∧ ∀ qs, ∃ o', oceanCalls qs o = .ok o' ∧
      ∀ (tt ut1 : Iau.Epoch) (l l' F D Om : ℝ), ∃ o'', o'.coeffs tt ut1 ![l, l', F, D, Om] = .ok o'' ∧ o''.mcs.deg = n ∧
        ∀ i j : Nat, j ≤ i → i ≤ n →
          o''.mcs.getC i j = .ok (waves.map fun w => w.at md mo Record.C (angle w.d (Iau.gmst tt ut1) l l' F D Om) i j).sum ∧
          o''.mcs.getS i j = .ok (waves.map fun w => w.at md mo Record.S (angle w.d (Iau.gmst tt ut1) l l' F D Om) i j).sum := by
  obtain ⟨a, ea, ha⟩ := atlas_waves (junk := junk) (junkErr := junkErr) (junkE := junkE) h
  obtain ⟨s1, -, s3⟩ := atlas_size ha hn
  have hd := s3 hreach
  obtain ⟨c, e, d1, d2, d3⟩ := modelSet_ok junk a
  rw [hd] at d1 d3
  have hc : c.rows = n + 1 := by omega
  have step : ∀ (o : Ocean), o.atlas = a → o.adm = none → o.mcs.rows = n + 1 → o.mcs.deg = n → ∀ (tt ut1 : Iau.Epoch) (l l' F D Om : ℝ),
      ∃ o', o.coeffs tt ut1 ![l, l', F, D, Om] = .ok o' ∧ o'.atlas = a ∧ o'.adm = none ∧ o'.mcs.rows = n + 1 ∧ o'.mcs.deg = n ∧
        ∀ i j : Nat, j ≤ i → i ≤ n → o'.mcs.C i j = potential a (fun d => angle d (Iau.gmst tt ut1) l l' F D Om) Coeffs.C i j ∧
          o'.mcs.S i j = potential a (fun d => angle d (Iau.gmst tt ut1) l l' F D Om) Coeffs.S i j := by
    intro o h1 h2 h3 h4 tt ut1 l l' F D Om
    obtain ⟨m', e', hs⟩ := (ocean_sum_partial o.atlas o.mcs tt ut1 l l' F D Om).1 (by rw [h1, h3]; exact s1)
    refine ⟨{ o with mcs := m' }, ?_, h1, h2, hs.2.2.1.trans h3, hs.1.trans h4, fun i j hij hi => ?_⟩
    · unfold Ocean.coeffs; rw [h2]; simp only [e', Res.bind]
    · have := hs.2.2.2 i j hij (by omega)
      rw [h1] at this
      exact this
  have key : ∀ (qs : List (Iau.Epoch × Iau.Epoch × (Fin 5 → ℝ))) (o : Ocean), o.atlas = a → o.adm = none → o.mcs.rows = n + 1 →
      o.mcs.deg = n → ∃ o', oceanCalls qs o = .ok o' ∧ o'.atlas = a ∧ o'.adm = none ∧ o'.mcs.rows = n + 1 ∧ o'.mcs.deg = n := by
    intro qs
    induction qs with
    | nil => intro o h1 h2 h3 h4; exact ⟨o, rfl, h1, h2, h3, h4⟩
    | cons q qs ih =>
      intro o h1 h2 h3 h4
      obtain ⟨tt, ut1, args⟩ := q
      have hargs : args = ![args 0, args 1, args 2, args 3, args 4] := by funext i; fin_cases i <;> rfl
      obtain ⟨o', e', g1, g2, g3, g4, -⟩ := step o h1 h2 h3 h4 tt ut1 (args 0) (args 1) (args 2) (args 3) (args 4)
      rw [oceanCalls, hargs, e']
      exact ih o' g1 g2 g3 g4
  refine ⟨⟨a, c, none⟩, ?_, fun qs => ?_⟩
  · unfold oceanModel Ocean.make
    rw [ea]
    simp only [Res.bind]
    rw [e]
  · obtain ⟨o', e1, h1, h2, h3, h4⟩ := key qs ⟨a, c, none⟩ rfl rfl hc d1
    refine ⟨o', e1, fun tt ut1 l l' F D Om => ?_⟩
    obtain ⟨o'', e', -, -, g3, g4, hv⟩ := step o' h1 h2 h3 h4 tt ut1 l l' F D Om
    refine ⟨o'', e', g4, fun i j hij hi => ?_⟩
    obtain ⟨v1, v2⟩ := hv i j hij hi
    obtain ⟨w1, w2⟩ := sum_waves ha hn (Iau.gmst tt ut1) l l' F D Om hij hi
    have hhas : o''.mcs.Has i j := ⟨by omega, by omega, by omega⟩
    unfold Coeffs.getC Coeffs.getS
    rw [if_pos hhas, if_pos hhas]
    simp only [Int.toNat_natCast]
    rw [v1, v2, w1, w2]
    exact ⟨rfl, rfl⟩

/-- C88 fails: the files are read to degree `n`, but no cosine file has a record of that degree. The model is made with a smaller
degree, and an assertion stops the program at the first evaluation. -/
theorem stored_degree_fails (h : StoredModel cal disk dir md mo list waves)
    (hn : ∀ w ∈ waves, w.cos.degree md = n ∧ w.sin.degree md = n) (hpos : 0 < n) (hreach : ∀ w ∈ waves, ¬ w.cos.Reaches md mo) :
    ∃ o, oceanModel cal disk junkErr junkE junk (some list) dir md mo = .ok o ∧
      ∀ (tt ut1 : Iau.Epoch) (l l' F D Om : ℝ), o.coeffs tt ut1 ![l, l', F, D, Om] = .abort := by
  obtain ⟨a, ea, ha⟩ := atlas_waves (junk := junk) (junkErr := junkErr) (junkE := junkE) h
  obtain ⟨s1, -, -⟩ := atlas_size ha hn
  have hlt : maxDegree a ≤ n - 1 := maxDegree_le (by omega) fun c hc => by
    obtain ⟨w, hw, hh⟩ := (mem_of_forall₂ ha).1 c hc
    have h1 := hh.cos.deg
    have h2 : c.cos.deg ≠ n := by
      intro e
      rcases hh.cos.reach.mp (by rw [(hn w hw).1]; exact e) with g | g
      · exact hreach w hw g
      · rw [(hn w hw).1] at g; omega
    rw [(hn w hw).1] at h1
    omega
  obtain ⟨c, e, d1, d2, d3⟩ := modelSet_ok junk a
  refine ⟨⟨a, c, none⟩, ?_, fun tt ut1 l l' F D Om => ?_⟩
  · unfold oceanModel Ocean.make
    rw [ea]
    simp only [Res.bind]
    rw [e]
  · have hns : ¬ SameSize a c.rows := by
      intro hs
      obtain ⟨w, hw⟩ := List.exists_mem_of_ne_nil _ h.some
      obtain ⟨x, hx, -⟩ := (mem_of_forall₂ ha).2 w hw
      have g1 := (hs x hx).1
      have g2 := (s1 x hx).1
      omega
    unfold Ocean.coeffs
    simp only [(ocean_sum_partial a c tt ut1 l l' F D Om).2 hns, Res.bind]

/-- C88 fails: without a bound the files are read to the degree of their headers. If these differ, the model is made, and an
assertion stops the program at the first evaluation. -/
theorem stored_sizes_fails (h : StoredModel cal disk dir md mo list waves)
    (hn : ∃ w ∈ waves, ∃ w' ∈ waves, w.cos.degree md ≠ w'.cos.degree md ∨ w.cos.degree md ≠ w'.sin.degree md) :
    ∃ o, oceanModel cal disk junkErr junkE junk (some list) dir md mo = .ok o ∧
      ∀ (tt ut1 : Iau.Epoch) (l l' F D Om : ℝ), o.coeffs tt ut1 ![l, l', F, D, Om] = .abort := by
  obtain ⟨a, ea, ha⟩ := atlas_waves (junk := junk) (junkErr := junkErr) (junkE := junkE) h
  obtain ⟨c, e, d1, d2, d3⟩ := modelSet_ok junk a
  refine ⟨⟨a, c, none⟩, ?_, fun tt ut1 l l' F D Om => ?_⟩
  · unfold oceanModel Ocean.make
    rw [ea]
    simp only [Res.bind]
    rw [e]
  · have hns : ¬ SameSize a c.rows := by
      intro hs
      obtain ⟨w, hw, w', hw', hne⟩ := hn
      obtain ⟨x, hx, g⟩ := (mem_of_forall₂ ha).2 w hw
      obtain ⟨x', hx', g'⟩ := (mem_of_forall₂ ha).2 w' hw'
      have r1 := g.cos.rows
      have r2 := g'.cos.rows
      have r3 := g'.sin.rows
      have s1 := (hs x hx).1
      have s2 := hs x' hx'
      omega
    unfold Ocean.coeffs
    simp only [(ocean_sum_partial a c tt ut1 l l' F D Om).2 hns, Res.bind]

end

/-- C88 fails: the header may give a model name of up to 127 characters; one of 64 or more overflows the name of the atlas. -/
theorem stored_name_fails {g : Gfc T} (hh : Holds g.header g.settings) (hs : g.header.length ≤ 1000) (ht : '\n' ∉ g.tail)
    (htl : g.tail.length + 11 < 256) (hname : 64 ≤ (lastOf Setting.modelName? [] g.settings).length) {path : List Int}
    (hp : disk path = some g.text) (co : Coeffs ℝ) : readGfc cal disk junkErr junkE junk md mo path co = .ub := by
  unfold readGfc
  rw [hp]
  unfold Gfc.text
  rw [header_read_partial hh hs g.tail _ ht htl]
  simp only [Res.bind]
  rw [if_pos (by omega)]

/-! ### With admittance -/

section
variable {dir : List Int} {list : List (List Int)} {waves : List (Wave T)} {n : Nat} {junkI : List Int} {junkA : Nat → Nat → ℚ}

/-- C88 (with admittance): from the files of a model, with the Doodson numbers `dood` of all its waves in the second file and the
admittance of every major wave (rows) at every wave (columns) in the third, a model is made; after any evaluations, at every epoch,
every coefficient up to degree `n` is the sum over all pairs of the admittance times the major wave at the angle of the wave.
Not covered (`_partial`): as in `stored_ocean_partial`, and long lines and wrong numbers of rows (C43, C72). -/
theorem stored_admittance_partial (h : StoredModel cal disk dir md mo list waves)
    (hn : ∀ w ∈ waves, w.cos.degree md = n ∧ w.sin.degree md = n) (hreach : ∃ w ∈ waves, w.cos.Reaches md mo)
    (hj : junkI.length = 6) {f2 f3 : List (List Char)} {dood : List DC} {adm : List (List ℚ)}
    (h2 : List.Forall₂ (fun line (d : DC) => line.length < 124 ∧ IntsAre line [d.i0, d.i1, d.i2, d.i3, d.i4, d.i5]) f2 dood)
    (hne : dood ≠ []) (h3 : RowsAre dood.length f3 adm) (hk : adm.length = waves.length) :
    ∃ o, oceanModelAdm cal disk junkErr junkE junk junkI junkA (some list) (some f2) (some f3) dir md mo = .ok o ∧
      ∀ qs, ∃ o', oceanCalls qs o = .ok o' ∧
      ∀ (tt ut1 : Iau.Epoch) (l l' F D Om : ℝ), ∃ o'', o'.coeffs tt ut1 ![l, l', F, D, Om] = .ok o'' ∧ o''.mcs.deg = n ∧
        ∀ i j : Nat, j ≤ i → i ≤ n →
          o''.mcs.getC i j = .ok (∑ f : Fin dood.length, ∑ k : Fin waves.length, (((adm.getD k []).getD f 0 : ℚ) : ℝ) *
            waves[k].at md mo Record.C (angle dood[f] (Iau.gmst tt ut1) l l' F D Om) i j) ∧
          o''.mcs.getS i j = .ok (∑ f : Fin dood.length, ∑ k : Fin waves.length, (((adm.getD k []).getD f 0 : ℚ) : ℝ) *
            waves[k].at md mo Record.S (angle dood[f] (Iau.gmst tt ut1) l l' F D Om) i j) := by
  obtain ⟨a, ea, ha⟩ := atlas_waves (junk := junk) (junkErr := junkErr) (junkE := junkE) h
  obtain ⟨s1, -, s3⟩ := atlas_size ha hn
  have hal := ha.length_eq
  have hd := s3 hreach
  obtain ⟨c, e, d1, d2, d3⟩ := modelSet_ok junk a
  rw [hd] at d1 d3
  have hc : c.rows = n + 1 := by omega
  have hrows : parseDoodson junkI (some f2) = dood.map fun d => [d.i0, d.i1, d.i2, d.i3, d.i4, d.i5] := by
    refine doodson_rows_partial junkI hj f2 _ ?_
    rw [List.forall₂_map_right_iff]
    exact h2.imp fun _ _ h => ⟨h.1, h.2, rfl⟩
  obtain ⟨A, eA, hA⟩ := admittance_complete junkA f3 adm waves.length dood.length h3 hk
  set G : Admittance := ⟨dood.map fun d => { d with pifac := 0 }, waves.length, dood.length, fun i j => (A i j : ℝ)⟩ with hG
  have hadm : groopsAtlasAdm junk junkI junkA (readGfc cal disk junkErr junkE junk md mo) (some list) (some f2) (some f3) dir md mo =
      .ok (a, G) := by
    unfold groopsAtlasAdm
    rw [ea]
    simp only [Res.bind, hrows, List.length_map]
    rw [if_neg (by simpa using hne), hal, eA]
    simp only [List.map_map]
    rfl
  have hval : ∀ (f : Fin dood.length) (k : Fin waves.length), A k f = (adm.getD k []).getD f 0 := by
    intro f k
    have hk' : (k : Nat) < adm.length := by have := k.2; omega
    have hg : adm[(k : Nat)]? = some (adm[(k : Nat)]'hk') := List.getElem?_eq_getElem hk'
    have := hA k f _ hg f.2
    have hg' : adm.getD k [] = adm[(k : Nat)]'hk' := by rw [List.getD_eq_getElem?_getD, hg]; rfl
    rw [hg', List.getD_eq_getElem?_getD, this]
    rfl
  have step : ∀ (o : Ocean), o.atlas = a → o.adm = some G → o.mcs.rows = n + 1 → o.mcs.deg = n → ∀ (tt ut1 : Iau.Epoch) (l l' F D Om : ℝ),
      ∃ o', o.coeffs tt ut1 ![l, l', F, D, Om] = .ok o' ∧ o'.atlas = a ∧ o'.adm = some G ∧ o'.mcs.rows = n + 1 ∧ o'.mcs.deg = n ∧
        ∀ i j : Nat, j ≤ i → i ≤ n → o'.mcs.C i j = (∑ f : Fin G.dood.length, ∑ k : Fin a.length,
          G.A k f * waveAt a[k] (angle G.dood[f] (Iau.gmst tt ut1) l l' F D Om) Coeffs.C i j) ∧
          o'.mcs.S i j = ∑ f : Fin G.dood.length, ∑ k : Fin a.length,
          G.A k f * waveAt a[k] (angle G.dood[f] (Iau.gmst tt ut1) l l' F D Om) Coeffs.S i j := by
    intro o h1 h2 h3 h4 tt ut1 l l' F D Om
    obtain ⟨m', e', hs⟩ := admittance_sum_partial a G o.mcs (by rw [h3]; exact s1) (by rw [hal]) (by simp [hG]) tt ut1 l l' F D Om
    refine ⟨{ o with mcs := m' }, ?_, h1, h2, hs.2.2.1.trans h3, hs.1.trans h4, fun i j hij hi => hs.2.2.2 i j hij (by omega)⟩
    unfold Ocean.coeffs; rw [h2, h1]; simp only [e', Res.bind]
  have key : ∀ (qs : List (Iau.Epoch × Iau.Epoch × (Fin 5 → ℝ))) (o : Ocean), o.atlas = a → o.adm = some G → o.mcs.rows = n + 1 →
      o.mcs.deg = n → ∃ o', oceanCalls qs o = .ok o' ∧ o'.atlas = a ∧ o'.adm = some G ∧ o'.mcs.rows = n + 1 ∧ o'.mcs.deg = n := by
    intro qs
    induction qs with
    | nil => intro o h1 h2 h3 h4; exact ⟨o, rfl, h1, h2, h3, h4⟩
    | cons q qs ih =>
      intro o h1 h2 h3 h4
      obtain ⟨tt, ut1, args⟩ := q
      have hargs : args = ![args 0, args 1, args 2, args 3, args 4] := by funext i; fin_cases i <;> rfl
      obtain ⟨o', e', g1, g2, g3, g4, -⟩ := step o h1 h2 h3 h4 tt ut1 (args 0) (args 1) (args 2) (args 3) (args 4)
      rw [oceanCalls, hargs, e']
      exact ih o' g1 g2 g3 g4
  refine ⟨⟨a, c, some G⟩, ?_, fun qs => ?_⟩
  · unfold oceanModelAdm Ocean.make
    rw [hadm]
    simp only [Res.bind]
    rw [e]
  · obtain ⟨o', e1, h1, h2, h3, h4⟩ := key qs ⟨a, c, some G⟩ rfl rfl hc d1
    refine ⟨o', e1, fun tt ut1 l l' F D Om => ?_⟩
    obtain ⟨o'', e', -, -, g3, g4, hv⟩ := step o' h1 h2 h3 h4 tt ut1 l l' F D Om
    refine ⟨o'', e', g4, fun i j hij hi => ?_⟩
    obtain ⟨v1, v2⟩ := hv i j hij hi
    have hhas : o''.mcs.Has i j := ⟨by omega, by omega, by omega⟩
    have term : ∀ (f : Fin G.dood.length) (k : Fin a.length),
        G.A k f * waveAt a[k] (angle G.dood[f] (Iau.gmst tt ut1) l l' F D Om) Coeffs.C i j =
          (((adm.getD k []).getD f 0 : ℚ) : ℝ) * waves[k].at md mo Record.C
            (angle (dood[f]'(by have := f.2; simpa [hG] using this)) (Iau.gmst tt ut1) l l' F D Om) i j ∧
        G.A k f * waveAt a[k] (angle G.dood[f] (Iau.gmst tt ut1) l l' F D Om) Coeffs.S i j =
          (((adm.getD k []).getD f 0 : ℚ) : ℝ) * waves[k].at md mo Record.S
            (angle (dood[f]'(by have := f.2; simpa [hG] using this)) (Iau.gmst tt ut1) l l' F D Om) i j := by
      intro f k
      have hf : (f : Nat) < dood.length := by have := f.2; simpa [hG] using this
      have hk' : (k : Nat) < waves.length := by have := k.2; omega
      have hw := (List.forall₂_iff_get.mp ha).2 k k.2 hk'
      simp only [List.get_eq_getElem] at hw
      obtain ⟨m1, m2⟩ := hn (waves[(k : Nat)]'hk') (List.getElem_mem hk')
      have hA' := hval ⟨f, hf⟩ ⟨k, hk'⟩
      simp only at hA'
      have hdd : G.dood[f] = { dood[(f : Nat)] with pifac := 0 } := by simp [hG]
      rw [hdd, angle_pifac]
      unfold waveAt Wave.at
      simp only [Fin.getElem_fin]
      rw [hw.cos.C i j hij (by omega), hw.sin.C i j hij (by omega), hw.cos.S i j hij (by omega), hw.sin.S i j hij (by omega)]
      simp only [hG, hA']
      exact ⟨trivial, trivial⟩
    have e1 : G.dood.length = dood.length := by simp [hG]
    unfold Coeffs.getC Coeffs.getS
    rw [if_pos hhas, if_pos hhas]
    simp only [Int.toNat_natCast]
    rw [v1, v2]
    simp only [term]
    constructor
    · congr 1
      refine Fintype.sum_equiv (finCongr e1) _ _ fun f => Fintype.sum_equiv (finCongr hal) _ _ fun k => rfl
    · congr 1
      refine Fintype.sum_equiv (finCongr e1) _ _ fun f => Fintype.sum_equiv (finCongr hal) _ _ fun k => rfl

end

/-! ### A model with one wave -/

/-- The header of a file of this degree (a digit). -/
def exHead (k : Char) : List (List Char) := ["modelname T".toList, "max_degree ".toList ++ [k], "errors no".toList]

theorem exHead_holds (k : Char) (v : Int) (hk : k = '2' ∧ v = 2 ∨ k = '3' ∧ v = 3) :
    Holds (exHead k) [.modelName "T".toList, .maxDegree v, .errors .no] := by
  refine .gives (plain_of (by decide) (by decide) (by decide)) ⟨"T".toList, ⟨0, 0, rfl, by decide, by decide⟩,
    ⟨0, rfl, by decide, by decide⟩, by decide⟩ ?_
  refine .gives ?_ ⟨[k], [], ⟨0, 0, rfl, by simp, ?_⟩, 0, ⟨false, [k]⟩, ⟨by simp, ?_⟩, ?_, rfl, by simp, ?_, ?_⟩ ?_
  · rcases hk with ⟨rfl, rfl⟩ | ⟨rfl, rfl⟩ <;> exact plain_of (by decide) (by decide) (by decide)
  · rcases hk with ⟨rfl, rfl⟩ | ⟨rfl, rfl⟩ <;> decide
  · rcases hk with ⟨rfl, rfl⟩ | ⟨rfl, rfl⟩ <;> decide
  · rcases hk with ⟨rfl, rfl⟩ | ⟨rfl, rfl⟩ <;> decide
  · rcases hk with ⟨rfl, rfl⟩ | ⟨rfl, rfl⟩ <;> decide
  · rcases hk with ⟨rfl, rfl⟩ | ⟨rfl, rfl⟩ <;> decide
  refine .gives (plain_of (by decide) (by decide) (by decide)) ⟨"no".toList, ⟨0, 0, rfl, by decide, by decide⟩, [], rfl, by simp⟩ ?_
  exact .nil

/-- A file of this degree with the coefficients of degree 2 and order 0 and 1. -/
def exGfc (k : Char) (v : Int) : Gfc Int where
  header := exHead k
  settings := [.modelName "T".toList, .maxDegree v, .errors .no]
  errors := .no
  tail := []
  data := ["gfc  2 0 1.5e-3 2.0".toList, "gfc  2 1 1.5e-3 2.0".toList]
  records := [⟨.static, 2, 0, 3 / 2000, 2, none, none⟩, ⟨.static, 2, 1, 3 / 2000, 2, none, none⟩]

theorem exGfc_ok (k : Char) (v : Int) (hk : k = '2' ∧ v = 2 ∨ k = '3' ∧ v = 3) : (exGfc k v).Ok exCal (-1) (-1) where
  header := exHead_holds k v hk
  short := by rcases hk with ⟨rfl, rfl⟩ | ⟨rfl, rfl⟩ <;> decide
  errors := rfl
  name := by rcases hk with ⟨rfl, rfl⟩ | ⟨rfl, rfl⟩ <;> decide
  tail := by rcases hk with ⟨rfl, rfl⟩ | ⟨rfl, rfl⟩ <;> decide
  one := by rcases hk with ⟨rfl, rfl⟩ | ⟨rfl, rfl⟩ <;> decide
  lines := by
    rw [if_neg (by rcases hk with ⟨rfl, rfl⟩ | ⟨rfl, rfl⟩ <;> decide)]
    exact .cons ⟨by decide, _, fortran_refl _, noFortran_of (by decide),
        Line1.gfc (cal := exCal) (line := " 2 0 1.5e-3 2.0".toList) (cols_1 true [] (by simp [Ends]))⟩
      (.cons ⟨by decide, _, fortran_refl _, noFortran_of (by decide),
        Line1.gfc (cal := exCal) (line := " 2 1 1.5e-3 2.0".toList) (cols_2 true [] (by simp [Ends]))⟩ .nil)
  static := by simp [exGfc]
  triangle := by simp [exGfc]
  order := by rcases hk with ⟨rfl, rfl⟩ | ⟨rfl, rfl⟩ <;> decide
  degree := by rcases hk with ⟨rfl, rfl⟩ | ⟨rfl, rfl⟩ <;> decide

/-- The wave pi1, with a cosine and a sine file. -/
def exWave (c s : Gfc Int) : Wave Int where
  d := ⟨1, 1, -3, 0, 0, 1, 0⟩
  model := bytes "TiME22"
  name := bytes "pi1"
  cosName := bytes "TiME22_162.556_pi1_cos.gfc"
  sinName := bytes "TiME22_162.556_pi1_sin.gfc"
  cos := c
  sin := s

/-- Two files in the directory `data`. -/
def exDisk (c s : Gfc Int) (path : List Int) : Option (List Char) :=
  if path = bytes "data" ++ bytes "/" ++ bytes "TiME22_162.556_pi1_cos.gfc" then some c.text
  else if path = bytes "data" ++ bytes "/" ++ bytes "TiME22_162.556_pi1_sin.gfc" then some s.text
  else none

theorem exStored_of {c s : Gfc Int} {md mo : Int} (hc : c.Ok exCal md mo) (hs : s.Ok exCal md mo) :
    StoredModel exCal (exDisk c s) (bytes "data") md mo
      [bytes "TiME22_162.556_pi1_cos.gfc TiME22_162.556_pi1_sin.gfc"] [exWave c s] := by
  have D : ∀ (n : Fin 36), Denotes (glyphs.getD n.val 0) ((n.val : Int) - 13) := by
    intro n
    refine ⟨by omega, ?_⟩
    rw [show ((n.val : Int) - 13 + 13).toNat = n.val from by omega]
    revert n
    decide +kernel
  have r1 : Renders (fold (bytes "162.556")) ⟨1, 1, -3, 0, 0, 1, 0⟩ :=
    ⟨49, 54, 50, 53, 53, 54, by decide +kernel, D 14, D 19, D 15, D 18, D 18, D 19⟩
  have c1 : Canonical (bytes "TiME22_162.556_pi1_cos.gfc") (bytes "TiME22") ⟨1, 1, -3, 0, 0, 1, 0⟩ (bytes "pi1") .cos :=
    ⟨bytes "162.556", r1, by decide +kernel, by decide +kernel, by decide +kernel⟩
  have c2 : Canonical (bytes "TiME22_162.556_pi1_sin.gfc") (bytes "TiME22") ⟨1, 1, -3, 0, 0, 1, 0⟩ (bytes "pi1") .sin :=
    ⟨bytes "162.556", r1, by decide +kernel, by decide +kernel, by decide +kernel⟩
  refine ⟨.cons ⟨by decide +kernel, Or.inl ?_⟩ .nil, ?_, List.pairwise_singleton _ _, by simp, by simp [exCal]⟩
  · exact ⟨by dsimp only [exWave]; decide +kernel, by dsimp only [exWave]; decide +kernel, by dsimp only [exWave]; decide +kernel,
      by dsimp only [exWave]; decide +kernel, 0, 1, 0, by decide, by dsimp only [exWave]; decide +kernel⟩
  · intro w hw
    rw [List.mem_singleton.mp hw]
    refine ⟨⟨c1, c2⟩, ?_, ?_, ?_, ?_, hc, hs⟩
    · dsimp only [exWave]; decide +kernel
    · dsimp only [exWave]; decide +kernel
    · unfold exDisk exWave; exact if_pos rfl
    · unfold exDisk
      rw [if_neg (by dsimp only [exWave]; decide +kernel)]
      exact if_pos rfl

theorem exStored (k k' : Char) (v v' : Int) (hk : k = '2' ∧ v = 2 ∨ k = '3' ∧ v = 3) (hk' : k' = '2' ∧ v' = 2 ∨ k' = '3' ∧ v' = 3) :
    StoredModel exCal (exDisk (exGfc k v) (exGfc k' v')) (bytes "data") (-1) (-1)
      [bytes "TiME22_162.556_pi1_cos.gfc TiME22_162.556_pi1_sin.gfc"] [exWave (exGfc k v) (exGfc k' v')] :=
  exStored_of (exGfc_ok k v hk) (exGfc_ok k' v' hk')

/-- The hypotheses of `stored_ocean_partial` and of `stored_admittance_partial` are met: both files are of degree 2 and reach it. -/
example : (∃ list waves, StoredModel exCal (exDisk (exGfc '2' 2) (exGfc '2' 2)) (bytes "data") (-1) (-1) list waves ∧
      (∀ w ∈ waves, w.cos.degree (-1) = (2 : Nat) ∧ w.sin.degree (-1) = (2 : Nat)) ∧ (∃ w ∈ waves, w.cos.Reaches (-1) (-1)) ∧
      (∃ w ∈ waves, w.cos.value (-1) (-1) Record.C 2 1 = 3 / 2000) ∧ waves.length = 1) ∧
    List.Forall₂ (fun line (d : DC) => line.length < 124 ∧ IntsAre line [d.i0, d.i1, d.i2, d.i3, d.i4, d.i5])
      ["1 1 -3 0 0  1".toList] [⟨1, 1, -3, 0, 0, 1, 0⟩] ∧ RowsAre 1 ["0.5".toList] [[1 / 2]] := by
  refine ⟨⟨_, _, exStored '2' '2' 2 2 (by decide) (by decide), ?_, ?_, ?_, rfl⟩, ?_, ?_⟩
  · intro w hw
    rw [List.mem_singleton.mp hw]
    exact ⟨rfl, rfl⟩
  · exact ⟨_, List.mem_singleton.mpr rfl, ⟨.static, 2, 0, 3 / 2000, 2, none, none⟩, by simp [exWave, exGfc], rfl, by decide⟩
  · refine ⟨_, List.mem_singleton.mpr rfl, ?_⟩
    unfold Gfc.value
    rw [if_pos (by decide)]
    simp [exWave, exGfc]
  · refine .cons ⟨by decide, ?_⟩ .nil
    exact ⟨" 1 -3 0 0  1".toList, ⟨0, ⟨false, ['1']⟩, ⟨by decide, by decide⟩, rfl, rfl, by decide, by decide, by decide⟩,
      " -3 0 0  1".toList, ⟨1, ⟨false, ['1']⟩, ⟨by decide, by decide⟩, rfl, rfl, by decide, by decide, by decide⟩,
      " 0 0  1".toList, ⟨1, ⟨true, ['3']⟩, ⟨by decide, by decide⟩, rfl, rfl, by decide, by decide, by decide⟩,
      " 0  1".toList, ⟨1, ⟨false, ['0']⟩, ⟨by decide, by decide⟩, rfl, rfl, by decide, by decide, by decide⟩,
      "  1".toList, ⟨1, ⟨false, ['0']⟩, ⟨by decide, by decide⟩, rfl, rfl, by decide, by decide, by decide⟩,
      [], ⟨2, ⟨false, ['1']⟩, ⟨by decide, by decide⟩, rfl, rfl, by decide, by decide, by decide⟩, trivial⟩
  · refine .cons ⟨by decide, ?_, rfl⟩ .nil
    exact ⟨0, ⟨false, ['0'], some ['5'], none⟩, [], Dec.ok_of (by decide), by decide +kernel, by decide, by unfold Ends; decide,
      by unfold LineIs Ends; decide⟩

/-- The hypotheses of `stored_degree_fails` are met: the headers say degree 3, the records reach degree 2. -/
example : ∃ list waves, StoredModel exCal (exDisk (exGfc '3' 3) (exGfc '3' 3)) (bytes "data") (-1) (-1) list waves ∧
    (∀ w ∈ waves, w.cos.degree (-1) = (3 : Nat) ∧ w.sin.degree (-1) = (3 : Nat)) ∧ ∀ w ∈ waves, ¬ w.cos.Reaches (-1) (-1) := by
  refine ⟨_, _, exStored '3' '3' 3 3 (by decide) (by decide), ?_, ?_⟩
  · intro w hw
    rw [List.mem_singleton.mp hw]
    exact ⟨rfl, rfl⟩
  · intro w hw
    rw [List.mem_singleton.mp hw]
    rintro ⟨r, hr, h1, -⟩
    have : r.n = 2 := by
      simp [exWave, exGfc] at hr
      rcases hr with rfl | rfl <;> rfl
    rw [this] at h1
    exact absurd h1 (by decide)

/-- The hypotheses of `stored_sizes_fails` are met: the headers say degree 2 and 3. -/
example : ∃ list waves, StoredModel exCal (exDisk (exGfc '2' 2) (exGfc '3' 3)) (bytes "data") (-1) (-1) list waves ∧
    ∃ w ∈ waves, ∃ w' ∈ waves, w.cos.degree (-1) ≠ w'.cos.degree (-1) ∨ w.cos.degree (-1) ≠ w'.sin.degree (-1) :=
  ⟨_, _, exStored '2' '3' 2 3 (by decide) (by decide), _, List.mem_singleton.mpr rfl, _, List.mem_singleton.mpr rfl,
    Or.inr (by decide)⟩

/-- The hypotheses of `stored_name_fails` are met: a name of 64 letters. -/
example : Holds ["modelname ".toList ++ List.replicate 64 'T'] [.modelName (List.replicate 64 'T')] ∧
    64 ≤ (lastOf Setting.modelName? [] [.modelName (List.replicate 64 'T')]).length :=
  ⟨.gives (plain_of (by decide) (by decide) (by decide)) ⟨List.replicate 64 'T', ⟨0, 0, rfl, by decide, by decide⟩,
    ⟨0, rfl, by decide, by decide⟩, by decide⟩ .nil, by decide⟩

end Verif.Groops
