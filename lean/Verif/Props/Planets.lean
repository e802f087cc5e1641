import Verif.Spec.Planets
/-
C68, C69: planet identifiers and kernel loading.
-/
namespace Verif.Planets

/-! ### C68 -/

/-- C68: every planet has its NAIF identifier, with status 0. -/
theorem planet_id (p : Planet) : planetToNaifId p = (0, naif p) := by cases p <;> rfl

/-- C68: different planets have different identifiers. -/
theorem planet_id_injective (p q : Planet) (h : (planetToNaifId p).2 = (planetToNaifId q).2) : p = q := by
  cases p <;> cases q <;> first | rfl | exact absurd h (by decide)

/-- C68: with a buffer of at least 4 characters (whatever its size), the call succeeds, stays within the
buffer, and leaves a terminated string that is the decimal form of the planet's identifier. -/
theorem planet_idstr (junk : List Nat) (p : Planet) (n : Int) (hn : 4 ≤ n) :
    ∃ buf s, planetToNaifIdStr junk p n = .ok (0, buf) ∧ (buf.length : Int) = n ∧ cstr buf = .ok s ∧
      IsDecimal s ∧ (decimal s : Int) = naif p := by
  have key : ∀ t : List Nat, toChars (planetToNaifId p).2 = t → t.length < 4 → (∀ c ∈ t, c ≠ 0) →
      ∃ buf, planetToNaifIdStr junk p n = .ok (0, buf) ∧ (buf.length : Int) = n ∧ cstr buf = .ok t := by
    intro t ht hl hz
    have e1 : (planetToNaifId p).1 = 0 := by rw [planet_id]
    refine ⟨t ++ (List.replicate n.toNat 0).drop t.length, ?_, ?_, ?_⟩
    · unfold planetToNaifIdStr
      rw [if_neg (by omega)]
      simp only [e1, ht]
      rw [if_neg (by simp), if_pos (by omega)]
    · simp; omega
    · have hd : (List.replicate n.toNat 0).drop t.length = 0 :: List.replicate (n.toNat - t.length - 1) (0 : Nat) := by
        rw [List.drop_replicate]
        obtain ⟨m, hm⟩ : ∃ m, n.toNat - t.length = m + 1 := ⟨n.toNat - t.length - 1, by omega⟩
        rw [hm]; rfl
      rw [hd]
      unfold cstr
      rw [if_pos (by simp)]
      congr 1
      rw [List.takeWhile_append_of_pos (by intro a ha; simpa using hz a ha)]
      simp
  cases p <;>
  · obtain ⟨buf, h1, h2, h3⟩ := key _ rfl (by decide) (by decide)
    refine ⟨buf, _, h1, h2, h3, ⟨by decide, by decide, by decide⟩, by decide⟩

/-- C68: with a non-negative size too small for the number, the call reports it. -/
theorem planet_idstr_small (junk : List Nat) (p : Planet) (n : Int) (h0 : 0 ≤ n) (hn : n < 2) :
    planetToNaifIdStr junk p n = .ok (2, junk) := by
  have : ((toChars (naif p)).length : Int) ≥ 2 := by cases p <;> decide
  unfold planetToNaifIdStr
  rw [if_neg (by omega)]
  simp only [planet_id]
  rw [if_neg (by simp), if_neg (by omega)]

/-- Below the documented size of 4 the result may lack its terminating zero: the Earth in a buffer of 3. -/
theorem planet_idstr_fails : ∃ buf, planetToNaifIdStr [] .earth 3 = .ok (0, buf) ∧ cstr buf = .ub :=
  ⟨_, rfl, rfl⟩

example : (4 : Int) ≤ 8 := by decide

/-! ### C69 -/

theorem strncmpEq_iff (f k : List Nat) : strncmpEq f k k.length = true ↔ k <+: f := by
  induction k generalizing f with
  | nil => simp [strncmpEq]
  | cons b bs ih =>
    cases f with
    | nil => simp [strncmpEq]
    | cons a as =>
      simp only [List.length_cons, strncmpEq, Bool.and_eq_true, beq_iff_eq, ih, List.cons_prefix_cons]
      exact ⟨fun h => ⟨h.1.symm, h.2⟩, fun h => ⟨h.1.symm, h.2⟩⟩

/-- The pool after a history of requests. -/
def requests (pool : Pool) (ks : List (List Nat)) : Pool := ks.foldl loadIfUnloaded pool

/-- No name in the list is a proper prefix of another. -/
def PrefixFree (names : List (List Nat)) : Prop := ∀ a ∈ names, ∀ b ∈ names, a <+: b → a = b

theorem load_eq {pool : Pool} {k : List Nat} (hp : ∀ f ∈ pool, f.length < FILLEN)
    (hf : ∀ f ∈ pool, k <+: f → k = f) :
    loadIfUnloaded pool k = if k ∈ pool then pool else pool ++ [k] := by
  unfold loadIfUnloaded
  have e : (pool.any (fun f => strncmpEq (f.take (FILLEN - 1)) k k.length) = true) ↔ k ∈ pool := by
    rw [List.any_eq_true]
    constructor
    · rintro ⟨f, hm, h⟩
      rw [strncmpEq_iff, List.take_of_length_le (by have := hp f hm; omega)] at h
      rw [hf f hm h]; exact hm
    · intro hm
      refine ⟨k, hm, ?_⟩
      rw [strncmpEq_iff, List.take_of_length_le (by have := hp k hm; omega)]
      exact List.prefix_refl k
  by_cases h : k ∈ pool
  · rw [if_pos (e.mpr h), if_pos h]
  · rw [if_neg (fun h' => h (e.mp h')), if_neg h]

/-- C69 (partial): as long as no name is a prefix of another and all are shorter than 128 characters,
any history of requests leaves each requested kernel loaded exactly once, nothing unloaded, and nothing
else loaded. Missing: names that are prefixes of others (`kernel_prefix_fails`) and long names
(`kernel_long_fails`). -/
theorem kernels_loaded_partial (pool : Pool) (ks : List (List Nat)) (hnd : pool.Nodup)
    (hlen : ∀ f ∈ pool ++ ks, f.length < FILLEN) (hpf : PrefixFree (pool ++ ks)) :
    (requests pool ks).Nodup ∧ ∀ f, f ∈ requests pool ks ↔ f ∈ pool ∨ f ∈ ks := by
  induction ks generalizing pool with
  | nil => exact ⟨hnd, by simp [requests]⟩
  | cons k ks ih =>
    have e := load_eq (pool := pool) (k := k) (fun f hf => hlen f (by simp [hf]))
      (fun f hf h => hpf k (by simp) f (by simp [hf]) h)
    have step : requests pool (k :: ks) = requests (loadIfUnloaded pool k) ks := rfl
    rw [step, e]
    by_cases hk : k ∈ pool
    · rw [if_pos hk]
      obtain ⟨h1, h2⟩ := ih pool hnd
        (fun f hf => hlen f (by simp only [List.mem_append, List.mem_cons] at hf ⊢; tauto))
        (fun a ha b hb => hpf a (by simp only [List.mem_append, List.mem_cons] at ha ⊢; tauto) b
          (by simp only [List.mem_append, List.mem_cons] at hb ⊢; tauto))
      refine ⟨h1, fun f => ?_⟩
      rw [h2, List.mem_cons]
      constructor
      · rintro (h | h); exact Or.inl h; exact Or.inr (Or.inr h)
      · rintro (h | rfl | h); exact Or.inl h; exact Or.inl hk; exact Or.inr h
    · rw [if_neg hk]
      obtain ⟨h1, h2⟩ := ih (pool ++ [k]) (by
          rw [List.nodup_append]
          exact ⟨hnd, by simp, by intro a ha b hb; simp at hb; rintro rfl; exact hk (hb ▸ ha)⟩)
        (fun f hf => hlen f (by simp only [List.mem_append, List.mem_cons, List.not_mem_nil, or_false] at hf ⊢; tauto))
        (fun a ha b hb => hpf a (by simp only [List.mem_append, List.mem_cons, List.not_mem_nil, or_false] at ha ⊢; tauto) b
          (by simp only [List.mem_append, List.mem_cons, List.not_mem_nil, or_false] at hb ⊢; tauto))
      refine ⟨h1, fun f => ?_⟩
      rw [h2]
      simp only [List.mem_append, List.mem_cons, List.not_mem_nil, or_false]
      tauto

/-- Hypotheses of `kernels_loaded_partial`: "a.tls" (97 46 116 ...) loaded, then "b.bsp", "a.tls", "b.bsp". -/
example : PrefixFree ([[97, 46, 116]] ++ [[98, 46, 98], [97, 46, 116], [98, 46, 98]]) := by
  unfold PrefixFree; decide

/-- C69 fails: "a.t" is never loaded once "a.tls" is. -/
theorem kernel_prefix_fails : ∃ pool k, k ∉ loadIfUnloaded pool k :=
  ⟨[[97, 46, 116, 108, 115]], [97, 46, 116], by decide⟩

theorem strncmpEq_long (f k : List Nat) (n : Nat) (h1 : f.length < n) (h2 : f.length < k.length) :
    strncmpEq f k n = false := by
  induction f generalizing k n with
  | nil =>
    cases k with
    | nil => simp at h2
    | cons b bs => cases n with
      | zero => simp at h1
      | succ n => rfl
  | cons a as ih =>
    cases k with
    | nil => simp at h2
    | cons b bs => cases n with
      | zero => simp at h1
      | succ n =>
        simp only [List.length_cons] at h1 h2
        simp only [strncmpEq, ih bs n (by omega) (by omega), Bool.and_false]

/-- C69 fails: a kernel with a name of 128 characters or more is loaded again at every request. -/
theorem kernel_long_fails (pool : Pool) (k : List Nat) (hk : FILLEN ≤ k.length) :
    loadIfUnloaded pool k = pool ++ [k] := by
  unfold loadIfUnloaded
  rw [if_neg]
  rw [List.any_eq_true]
  rintro ⟨f, _, h⟩
  rw [strncmpEq_long] at h
  · simp at h
  · rw [List.length_take]; have : FILLEN = 128 := rfl; omega
  · rw [List.length_take]; have : FILLEN = 128 := rfl; omega

example : FILLEN ≤ (List.replicate 200 97).length := by
  rw [List.length_replicate]; unfold FILLEN; omega

end Verif.Planets
