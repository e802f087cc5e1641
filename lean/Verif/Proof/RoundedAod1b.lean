import Verif.Model.RoundedAod1b
import Verif.Spec.RoundedAod1b
import Verif.Proof.Aod1bHistory
import Verif.Proof.RoundedIcgem
/-
Queries to a dealiasing stream in double precision.
-/
namespace Verif.RoundedAod1b
open Verif Verif.Aod1b Verif.Rounded Verif.Rounding

variable {T : Type} {fl : Arith} (hf : Faithful fl) {dd : T → T → ℝ} {E : Env T} (hdd : DayDifference E.day dd)

/-! ### The interpolation -/

/-- A quotient of differences of days. -/
theorem weight_sc {fl : Arith} (hf : Faithful fl) {N N' D D' : ℝ} (hD : 1 / 24 ≤ D) (hN' : |N' - N| ≤ 4 * u * (|N| + 1)) (hD' : |D' - D| ≤ 4 * u * (|D| + 1)) :
    Sc (8 + 8 / D + 1.1) (1 + |N / D|) (fl (N' / D')) (N / D) := by
  have D0 : 0 < D := by linarith
  have hu := u_pos
  have hk : 1 / D ≤ 24 := by
    rw [div_le_iff₀ D0]; linarith
  have hk0 : 0 < 1 / D := by positivity
  have hf0 := abs_nonneg (N / D)
  have eN : |N| = D * |N / D| := by rw [abs_div, abs_of_pos D0]; field_simp
  have hn : Sc (4 + 4 * (1 / D)) (D * (1 + |N / D|)) N' N := by
    refine ⟨by rw [eN]; nlinarith, hN'.trans ?_⟩
    rw [eN]
    generalize |N / D| = f at *
    have e : (4 + 4 * (1 / D)) * u * (D * (1 + f)) = 4 * u * (D * f + 1) + 4 * u * (D + f) := by field_simp; ring
    rw [e]
    have : 0 ≤ 4 * u * (D + f) := by positivity
    linarith
  have hd : |D' - D| ≤ (4 + 4 * (1 / D)) * u * |D| := by
    refine hD'.trans (le_of_eq ?_)
    rw [abs_of_pos D0]; field_simp
  have q := (hn.div D0.ne' hd (by linarith) (by linarith) (by linarith) (by linarith)).fl hf (by linarith)
  have e : D * (1 + |N / D|) / |D| = 1 + |N / D| := by rw [abs_of_pos D0]; field_simp
  rw [e] at q
  exact q.mono (by rw [show 8 / D = 8 * (1 / D) by ring]; linarith)

include hf in
theorem blend_sc {k f1' f1 f2' f2 M1 M2 : ℝ} (h1 : Sc k M1 f1' f1) (h2 : Sc k M2 f2' f2) (h0 : 0 ≤ k) (hk : k ≤ 300) (v1 v2 : ℝ) :
    |blend fl f1' f2' v1 v2 - (f1 * v1 + f2 * v2)| ≤ (k + 3.1) * u * (M1 * |v1| + M2 * |v2|) := by
  have a := h1.mulp hf 0 (Sc.of_rel (Rel.one hf.toRounds v1)) h0 (by linarith)
  have b := h2.mulp hf 1 (Sc.of_rel (Rel.one hf.toRounds v2)) h0 (by linarith)
  exact ((a.addf hf (k + 2.01) b (by linarith) (by linarith) (by linarith)).mono (by linarith)).2

include hf hdd in
theorem interp_ok {n : Int} {t : T} {h1 h2 : Hdr T} {b1 b2 cs : Coeffs ℝ} {s1 s2 : DataSet T} (hb1 : Buf n b1 h1 s1) (hb2 : Buf n b2 h2 s2)
    (hfit : Fits n cs) (hd : E.day s1.epoch < E.day s2.epoch) :
    ∃ cs', interp fl dd t h1.epoch h2.epoch b1 b2 cs = .ok cs' ∧ NearLine E.day n t s1 s2 cs cs' := by
  obtain ⟨e1, ⟨r1, r2, r3⟩, v1⟩ := hb1
  obtain ⟨e2, ⟨q1, q2, q3⟩, v2⟩ := hb2
  obtain ⟨f1, f2⟩ := hfit
  unfold interp
  rw [if_pos (by omega)]
  refine ⟨_, rfl, ⟨rfl, rfl, rfl, rfl, rfl, rfl⟩, ?_, ?_⟩
  · intro l m h
    have h' : ¬((m : Int) ≤ cs.ord ∧ m ≤ l ∧ (l : Int) ≤ cs.deg) := fun hh => h ⟨hh.2.1, hh.2.2, hh.1⟩
    simp only [if_neg h', and_self]
  intro hgap l m hml hl hm
  obtain ⟨x1, x2⟩ := v1 l m hml (by omega)
  obtain ⟨y1, y2⟩ := v2 l m hml (by omega)
  simp only [hml, hl, hm, and_self, if_true, x1, x2, y1, y2, e1, e2]
  have hne : E.day s2.epoch - E.day s1.epoch ≠ 0 := by linarith
  have hD : 1 / 24 ≤ E.day s2.epoch - E.day s1.epoch := by linarith
  have w1 := weight_sc hf hD (hdd s2.epoch t) (hdd s2.epoch s1.epoch)
  have w2 := weight_sc hf hD (hdd t s1.epoch) (hdd s2.epoch s1.epoch)
  have D0 : 0 < E.day s2.epoch - E.day s1.epoch := by linarith
  have hk : 1 / (E.day s2.epoch - E.day s1.epoch) ≤ 24 := by rw [div_le_iff₀ D0]; linarith
  have hk0 : 0 < 1 / (E.day s2.epoch - E.day s1.epoch) := by positivity
  have e8 : 8 / (E.day s2.epoch - E.day s1.epoch) = 8 * (1 / (E.day s2.epoch - E.day s1.epoch)) := by ring
  have key : ∀ a b : ℝ, |blend fl (fl (dd s2.epoch t / dd s2.epoch s1.epoch)) (fl (dd t s1.epoch / dd s2.epoch s1.epoch)) a b -
      lineAt E.day t s1.epoch s2.epoch a b| ≤ slack E.day t s1.epoch s2.epoch a b := by
    intro a b
    have := blend_sc hf w1 w2 (by rw [e8]; linarith) (by rw [e8]; linarith) a b
    have el : lineAt E.day t s1.epoch s2.epoch a b = (E.day s2.epoch - E.day t) / (E.day s2.epoch - E.day s1.epoch) * a +
        (E.day t - E.day s1.epoch) / (E.day s2.epoch - E.day s1.epoch) * b := by
      unfold lineAt; field_simp; ring
    rw [el]
    refine this.trans ?_
    unfold slack
    refine mul_le_mul_of_nonneg_right (mul_le_mul_of_nonneg_right (by linarith) u_pos.le) (by positivity)
  exact ⟨key _ _, key _ _⟩

/-! ### Histories of queries -/

variable [LinearOrder T]

include hf hdd in
/-- The end of a query that found two data sets. -/
theorem at_found (hday : StrictMono E.day) {d : Ds T} {i : Int} {s1 s2 : DataSet T} {w : Window T} (hf : (Look.found s1 s2 w).Index E d i) {t : T}
    {cs : Coeffs ℝ} (hfit : Fits d.a.maxDegree cs) :
    0 ≤ i ∧ ∃ cs', atIndex fl dd t i d cs = .ok (0, d, cs') ∧ NearLine E.day d.a.maxDegree t s1 s2 cs cs' := by
  obtain ⟨-, hlt, ⟨rfl, b1, b2⟩ | ⟨rfl, b1, b2⟩⟩ := hf
  · obtain ⟨cs', e, hl⟩ := interp_ok hf hdd (t := t) b1 b2 hfit (hday hlt)
    refine ⟨by omega, cs', ?_, hl⟩
    unfold atIndex
    rw [if_pos rfl, e]; rfl
  · obtain ⟨cs', e, hl⟩ := interp_ok hf hdd (t := t) b1 b2 hfit (hday hlt)
    refine ⟨by omega, cs', ?_, hl⟩
    unfold atIndex
    rw [if_neg (by omega), if_pos rfl, e]; rfl

/-- `coefficients_at` does not need the checks before `hunt_range`. -/
theorem coeffsAt_hunt {t : T} {d : Ds T} {cs : Coeffs ℝ} : coeffsAt fl dd E t d cs = (Ds.hunt E t d).bind fun (i, d) =>
    if 0 ≤ i then atIndex fl dd t i d cs
    else if i = -100 ∧ d.dir = true then
      (Ds.feedNext E d).bind fun (j, d) =>
      if j ≠ 0 then .ok (1, d, cs)
      else (Ds.hunt E t d).bind fun (i, d) => if i < 0 then .ok (1, d, cs) else atIndex fl dd t i d cs
    else .ok (1, d, cs) := by
  unfold coeffsAt
  by_cases c0 : d.h0.epoch ≤ t ∧ t < d.h1.epoch
  · have : Ds.hunt E t d = .ok (0, d) := by
      unfold Ds.hunt Ds.hunt1; rw [if_pos c0]; rfl
    rw [if_pos c0, this]
    simp only [Res.bind]
    rw [if_pos (by omega)]
  · rw [if_neg c0]
    by_cases c1 : d.h1.epoch ≤ t ∧ t < d.h2.epoch
    · have : Ds.hunt E t d = .ok (1, d) := by
        unfold Ds.hunt Ds.hunt1; rw [if_neg c0, if_pos c1]; rfl
      rw [if_pos c1, this]
      simp only [Res.bind]
      rw [if_pos (by omega)]
    · rw [if_neg c1]

include hf hdd in
/-- A query in any state. -/
theorem query_any (hday : StrictMono E.day) {d : Ds T} {k : Desk T} (h : Keeps E d k) {t : T} {cs : Coeffs ℝ} (hfit : Fits d.a.maxDegree cs) :
    ∃ r d', coeffsAt fl dd E t d cs = .ok (r.1, d', r.2) ∧ d'.a.maxDegree = d.a.maxDegree ∧ RoundedAod1b.Answered E.day d.a.maxDegree (t, cs) r (k.answer E.min t).1 ∧
      Keeps E d' (k.answer E.min t).2 := by
  obtain ⟨hs, ho, hm, hc, hb⟩ := h
  rw [coeffsAt_hunt]
  have hmin : ∀ s ∈ k.later.flatten, E.min < s.epoch := fun s hs => hc.2 s (by simp only [List.mem_append]; exact Or.inr hs)
  have hfl : ∀ s ∈ k.file, ∀ s' ∈ k.later.flatten, s.epoch < s'.epoch := fun s hs s' hs' =>
    (List.pairwise_append.mp hc.1).2.2 s hs s' hs'
  have hall := seek_all (P := fun s => ∀ s' ∈ k.later.flatten, s.epoch < s'.epoch) (min := E.min) (fun _ _ => hmin) hb hfl t
  obtain ⟨i, d1, e, ha, hd, hi⟩ := seek_ok hs ho t
  have hbf := seek_before (min := E.min) hs.later0 ho.chron t
  simp only [e, Res.bind]
  have hm1 : d1.dir = true ∧ Series E.date E.ty E.feed d1.a k.later ∨ d1.dir = false ∧ k.later = [] := by rw [hd, ha]; exact hm
  have ho1 : Open E d1.a k.file := by rw [ha]; exact ho
  unfold Desk.answer
  cases hk : k.w.seek E.min k.file t with
  | back => rw [hk] at hi; exact hi.elim
  | found s1 s2 w =>
    rw [hk] at hi hall hbf
    obtain ⟨h0, cs', e2, hl⟩ := at_found hf hdd hday hi (t := t) (cs := cs) (by rw [ha]; exact hfit)
    rw [if_pos h0, e2]
    exact ⟨(0, cs'), d1, rfl, by rw [ha], ⟨rfl, hbf, hi.2.1, by rw [← ha]; exact hl⟩, hi.1, ho1, hm1, hc, hall.2.2⟩
  | refused w =>
    rw [hk] at hi hall
    rw [if_neg (by have := hi.2.1; omega), if_neg (fun hh => hi.2.2 hh.1)]
    exact ⟨(1, cs), d1, rfl, by rw [ha], ⟨rfl, rfl⟩, hi.1, ho1, hm1, hc, hall⟩
  | ended w =>
    rw [hk] at hi hall
    obtain ⟨hi1, hi2, rfl⟩ := hi
    rw [if_neg (by omega)]
    rcases hm1 with ⟨hdir, hser⟩ | ⟨hdir, hlat⟩
    · rw [if_pos ⟨rfl, hdir⟩]
      obtain ⟨kf, kw, kl⟩ := k
      simp only at hser hall hc hk ho1 hmin hfl ⊢
      cases hser with
      | last hfeed =>
        have : Ds.feedNext E d1 = .ok (2, d1) := by unfold Ds.feedNext; simp only [hfeed, Res.bind]
        simp only [this]
        rw [if_pos (by omega)]
        exact ⟨(1, cs), d1, rfl, by rw [ha], ⟨rfl, rfl⟩, hi1, ho1, Or.inl ⟨hdir, .last hfeed⟩, hc, hall⟩
      | @next _ a' sets later hfeed hfile h4 hfirst hsame hser =>
        obtain ⟨x0, x1, x2, x3, xs, rfl⟩ := four h4
        obtain ⟨d2, e2, hi3, ha2, hd2⟩ := feed_ok hi1.inv hfeed hfile hsame
        simp only [e2]
        rw [if_neg (by simp)]
        have hc1 : Chron E.min ((x0 :: x1 :: x2 :: x3 :: xs) ++ later.flatten) := by
          refine ⟨(List.pairwise_append.mp hc.1).2.1, fun s hs => hc.2 s ?_⟩
          simp only [List.flatten_cons, List.mem_append] at hs ⊢
          exact Or.inr hs
        have hc2 : Chron E.min (x0 :: x1 :: x2 :: x3 :: xs) :=
          ⟨(List.pairwise_append.mp hc1.1).1, fun s hs => hc1.2 s (List.mem_append_left _ hs)⟩
        have hopen : Open E d2.a (x0 :: x1 :: x2 :: x3 :: xs) := by rw [ha2]; exact ⟨hfile, h4, hc2, hfirst⟩
        obtain ⟨w0, w1, w2, -⟩ := hall
        have hin : ∀ s, s ∈ x1 :: x2 :: x3 :: xs → s ∈ (List.flatten ((x0 :: x1 :: x2 :: x3 :: xs) :: later)) := fun s hs => by
          rw [List.flatten_cons]; exact List.mem_append_left _ (List.mem_cons_of_mem _ hs)
        have hin2 : ∀ s, s ∈ later.flatten → s ∈ (List.flatten ((x0 :: x1 :: x2 :: x3 :: xs) :: later)) := fun s hs => by
          rw [List.flatten_cons]; exact List.mem_append_right _ hs
        have hp := List.pairwise_cons.mp hc2.1
        have hs2 : Sees E d2 ⟨w.s1, w.s2, x0, x1 :: x2 :: x3 :: xs⟩ :=
          ⟨hi3, hp.2, fun s hs => w1 s (hin s hs), fun s hs => w2 s (hin s hs), fun s hs => hp.1 s hs, fun s hs => hc2.2 s (List.mem_cons_of_mem _ hs)⟩
        have hcross := (List.pairwise_append.mp hc1.1).2.2
        have hall2 := seek_all (P := fun s => ∀ s' ∈ later.flatten, s.epoch < s'.epoch) (min := E.min) (fun _ _ s hs => hmin s (hin2 s hs))
          (w := ⟨w.s1, w.s2, x0, x1 :: x2 :: x3 :: xs⟩)
          ⟨fun s hs => w1 s (hin2 s hs), fun s hs => w2 s (hin2 s hs), fun s hs => hcross x0 (by simp) s hs,
            fun s' hs' s hs => hcross s' (List.mem_cons_of_mem _ hs') s hs⟩ (sets := x0 :: x1 :: x2 :: x3 :: xs) (fun s' hs' s hs => hcross s' hs' s hs) t
        obtain ⟨i, d3, e3, ha3, hd3, hi4⟩ := seek_ok hs2 hopen t
        have hbf2 := seek_before (min := E.min) hs2.later0 hopen.chron t
        simp only [e3]
        have hm3 : d3.dir = true ∧ Series E.date E.ty E.feed d3.a later ∨ d3.dir = false ∧ later = [] :=
          Or.inl ⟨by rw [hd3, hd2, hdir], by rw [ha3, ha2]; exact hser⟩
        have hn : d3.a.maxDegree = d.a.maxDegree := by rw [ha3, ha2, hsame, ha]
        have ho3 : Open E d3.a (x0 :: x1 :: x2 :: x3 :: xs) := by rw [ha3]; exact hopen
        cases hk2 : Window.seek E.min (x0 :: x1 :: x2 :: x3 :: xs) ⟨w.s1, w.s2, x0, x1 :: x2 :: x3 :: xs⟩ t with
        | back => rw [hk2] at hi4; exact hi4.elim
        | found s1 s2 w' =>
          rw [hk2] at hi4 hall2 hbf2
          obtain ⟨h0, cs', e4, hl⟩ := at_found hf hdd hday hi4 (t := t) (cs := cs) (by rw [hn]; exact hfit)
          rw [if_neg (by omega), e4]
          exact ⟨(0, cs'), d3, rfl, hn, ⟨rfl, hbf2, hi4.2.1, by rw [← hn]; exact hl⟩, hi4.1, ho3, hm3, hc1, hall2.2.2⟩
        | refused w' =>
          rw [hk2] at hi4 hall2
          rw [if_pos hi4.2.1]
          exact ⟨(1, cs), d3, rfl, hn, ⟨rfl, rfl⟩, hi4.1, ho3, hm3, hc1, hall2⟩
        | ended w' =>
          rw [hk2] at hi4 hall2
          rw [if_pos (by rw [hi4.2.2]; omega)]
          exact ⟨(1, cs), d3, rfl, hn, ⟨rfl, rfl⟩, hi4.1, ho3, hm3, hc1, hall2⟩
    · rw [if_neg (fun hh => by rw [hdir] at hh; simp at hh)]
      obtain ⟨kf, kw, kl⟩ := k
      simp only at hlat hall hc hk ho1 ⊢
      subst hlat
      exact ⟨(1, cs), d1, rfl, by rw [ha], ⟨rfl, rfl⟩, hi1, ho1, Or.inr ⟨hdir, rfl⟩, hc, hall⟩

include hf hdd in
theorem history_run (hday : StrictMono E.day) : ∀ (qs : List (T × Coeffs ℝ)) (d : Ds T) (k : Desk T), Keeps E d k →
      (∀ q ∈ qs, Fits d.a.maxDegree q.2) →
      ∃ rs d', run fl dd E qs d = .ok (rs, d') ∧ rs.length = qs.length ∧
        List.Forall₂ (fun (qr : (T × Coeffs ℝ) × (Int × Coeffs ℝ)) ans => RoundedAod1b.Answered E.day d.a.maxDegree qr.1 qr.2 ans) (qs.zip rs)
          (k.answers E.min (qs.map Prod.fst))
  | [], d, _, _, _ => ⟨[], d, rfl, rfl, .nil⟩
  | (t, cs) :: qs, d, k, h, hq => by
    obtain ⟨r, d1, e, ha, hr, hs⟩ := query_any hf hdd hday h (t := t) (hq (t, cs) (by simp))
    obtain ⟨rs, d', e2, hl, hrs⟩ := history_run hday qs d1 _ hs (fun q hq' => by rw [ha]; exact hq q (by simp [hq']))
    refine ⟨r :: rs, d', ?_, by simp [hl], ?_⟩
    · rw [run]
      simp only [e, Res.bind, e2]
    · rw [ha] at hrs
      exact .cons hr hrs


end Verif.RoundedAod1b
