import Verif.Model.Launch
import Verif.Spec.Launch
/-!
C71: the environment and the buffering of a submission.
-/

namespace Verif.Launch

private theorem look_put (k k' : String) (v : Val) (d : Dict) :
    look k' (put k v d) = if k' = k then some v else look k' d := by
  induction d with
  | nil => simp only [put, look]; grind
  | cons p d ih =>
    obtain ⟨a, b⟩ := p
    simp only [put]
    split <;> simp only [look] <;> grind

private theorem keys_put (k : String) (v : Val) (d : Dict) :
    (put k v d).map (·.1) = if k ∈ d.map (·.1) then d.map (·.1) else d.map (·.1) ++ [k] := by
  induction d with
  | nil => simp [put]
  | cons p d ih =>
    obtain ⟨a, b⟩ := p
    simp only [put]
    split
    · simp_all
    · simp only [List.map_cons, ih]
      by_cases h : k ∈ d.map (·.1)
      · simp [h]
      · have : ¬ k ∈ a :: d.map (·.1) := by simp only [List.mem_cons, not_or]; exact ⟨fun e => by grind, h⟩
        simp [h, this]

private theorem nodup_put (k : String) (v : Val) (d : Dict) (h : (d.map (·.1)).Nodup) :
    ((put k v d).map (·.1)).Nodup := by
  rw [keys_put]
  split
  · exact h
  · rename_i hk
    rw [List.nodup_append]
    exact ⟨h, by simp, by simp; grind⟩

private theorem nodup_update (d e : Dict) (h : (d.map (·.1)).Nodup) : ((update d e).map (·.1)).Nodup := by
  unfold update
  induction e generalizing d with
  | nil => exact h
  | cons p e ih => exact ih _ (nodup_put _ _ _ h)

private theorem look_update (d e : Dict) (k : String) :
    (∃ v, Configures e k v ∧ look k (update d e) = some v) ∨ (Unconfigured e k ∧ look k (update d e) = look k d) := by
  unfold update
  induction e generalizing d with
  | nil => exact Or.inr ⟨by simp [Unconfigured], rfl⟩
  | cons p e ih =>
    obtain ⟨a, b⟩ := p
    simp only [List.foldl_cons]
    rcases ih (put a b d) with ⟨v, ⟨pre, post, h1, h2⟩, h3⟩ | ⟨h1, h2⟩
    · exact Or.inl ⟨v, ⟨(a, b) :: pre, post, by simp [h1], h2⟩, h3⟩
    · by_cases hk : a = k
      · subst hk
        exact Or.inl ⟨b, ⟨[], e, rfl, h1⟩, by rw [h2, look_put, if_pos rfl]⟩
      · exact Or.inr ⟨fun q hq => by
          rcases List.mem_cons.1 hq with rfl | hq
          · exact hk
          · exact h1 q hq, by rw [h2, look_put, if_neg (fun h => hk h.symm)]⟩

private theorem conf_unique {e : Dict} {k : String} {v w : Val} (h : Configures e k v) (h' : Configures e k w) : v = w := by
  obtain ⟨p, q, rfl, hq⟩ := h
  obtain ⟨p', q', he, hq'⟩ := h'
  rcases List.append_eq_append_iff.1 he with ⟨t, h1, h2⟩ | ⟨t, h1, h2⟩
  · cases t with
    | nil => simp at h2; exact h2.1
    | cons x t =>
      simp at h2
      obtain ⟨rfl, rfl⟩ := h2
      exact absurd rfl (hq (k, w) (by simp))
  · cases t with
    | nil => simp at h2; exact h2.1.symm
    | cons x t =>
      simp at h2
      obtain ⟨rfl, rfl⟩ := h2
      exact absurd rfl (hq' (k, v) (by simp))

private theorem conf_not {e : Dict} {k : String} {v : Val} (h : Configures e k v) : ¬ Unconfigured e k := by
  obtain ⟨p, q, rfl, _⟩ := h
  exact fun hu => hu (k, v) (by simp) rfl

private theorem look_none {d : Dict} {k : String} : look k d = none ↔ Unconfigured d k := by
  induction d with
  | nil => simp [look, Unconfigured]
  | cons p d ih =>
    obtain ⟨a, b⟩ := p
    simp only [look, Unconfigured, List.mem_cons] at ih ⊢
    split
    · rename_i h
      simp only [reduceCtorEq, false_iff]
      exact fun hu => hu (a, b) (Or.inl rfl) h
    · rename_i h
      rw [ih]
      exact ⟨fun hu q hq => hq.elim (fun e => by subst e; exact h) (hu q), fun hu q hq => hu q (Or.inr hq)⟩

private theorem look_some {d : Dict} {k : String} {v : Val} (hn : (d.map (·.1)).Nodup) :
    look k d = some v ↔ (k, v) ∈ d := by
  induction d with
  | nil => simp [look]
  | cons p d ih =>
    obtain ⟨a, b⟩ := p
    simp only [List.map_cons, List.nodup_cons] at hn
    simp only [look, List.mem_cons, Prod.mk.injEq]
    split
    · rename_i h
      subst h
      constructor
      · intro h; exact Or.inl ⟨rfl, (Option.some.inj h).symm⟩
      · rintro (⟨_, rfl⟩ | h)
        · rfl
        · exact absurd (List.mem_map.2 ⟨_, h, rfl⟩) hn.1
    · rename_i h
      rw [ih hn.2]
      exact ⟨Or.inr, fun h' => h'.elim (fun e => absurd e.1.symm h) id⟩

private theorem look_update_nodup (d e : Dict) (k : String) (hn : (e.map (·.1)).Nodup) :
    look k (update d e) = (look k e).or (look k d) := by
  rcases look_update d e k with ⟨v, ⟨p, q, h1, h2⟩, h3⟩ | ⟨h1, h2⟩
  · have : look k e = some v := (look_some hn).2 (by simp [h1])
    rw [h3, this]; rfl
  · rw [h2, look_none.2 h1]; rfl

private theorem nodup_base (c : Cfg) : ((baseEnv c).map (·.1)).Nodup := by
  unfold baseEnv
  dsimp only
  split
  · exact nodup_put _ _ _ (by simp)
  · simp

private theorem nodup_script (c : Cfg) (conf : Option Dict) : ((scriptEnv c conf).map (·.1)).Nodup := by
  cases conf with
  | none => exact nodup_base c
  | some e => exact nodup_update _ _ (nodup_base c)

private theorem nodup_getEnv (c : Cfg) (k : Kind) (e : Dict) (h : getEnv c k = some e) : (e.map (·.1)).Nodup := by
  cases k with
  | plain => cases h; exact nodup_base c
  | gcc conf => cases h; exact nodup_update _ _ (nodup_base c)
  | script conf => cases h; exact nodup_script c conf
  | shell conf =>
    obtain ⟨p, -, rfl⟩ := Option.map_eq_some_iff.1 h
    exact nodup_put _ _ _ (nodup_script c conf)
  | mono => cases h; exact nodup_put _ _ _ (nodup_put _ _ _ (nodup_base c))

private theorem nodup_launch (c : Cfg) (k : Kind) (d : Dict) (h : launchEnv c k = some d) : (d.map (·.1)).Nodup := by
  obtain ⟨e, -, rfl⟩ := Option.map_eq_some_iff.1 h
  exact nodup_update _ _ (by simp)

private theorem look_base (c : Cfg) (n : String) : look n (baseEnv c) =
    if n = "LANG" then some (.str c.locale)
    else if n = "CPTBOX_STDOUT_BUFFER_SIZE" ∧ c.unbuffered = true then some (.int 0) else none := by
  unfold baseEnv
  dsimp only
  split
  · rw [look_put]
    by_cases h1 : n = "LANG"
    · subst h1
      simp [look]
    · by_cases h2 : n = "CPTBOX_STDOUT_BUFFER_SIZE"
      · simp_all
      · simp only [if_neg h2, look, if_neg h1, h2, false_and, if_false]
        rw [if_neg (Ne.symm h1)]
  · by_cases h1 : n = "LANG"
    · subst h1; simp [look]
    · simp_all only [Bool.not_eq_true, Bool.false_eq_true, and_false, if_false, look]
      rw [if_neg (Ne.symm h1)]

private theorem look_cons' (n k : String) (v : Val) (d : Dict) :
    look n ((k, v) :: d) = if n = k then some v else look n d := by
  simp only [look]
  by_cases h : k = n
  · rw [if_pos h, if_pos h.symm]
  · rw [if_neg h, if_neg (Ne.symm h)]

/-- The value of a name in the dictionary `launch` makes, as one expression. -/
private theorem look_launch (c : Cfg) (k : Kind) (d : Dict) (h : launchEnv c k = some d) (n : String) :
    ∃ e, getEnv c k = some e ∧ look n d = (look n e).or
      (if n = "LD_LIBRARY_PATH" then some (.str ((c.judge "LD_LIBRARY_PATH").getD ""))
       else if n = "LD_PRELOAD" then some (.str c.agent)
       else if n = "CPTBOX_STDOUT_BUFFER_SIZE" then some (size c.outSize)
       else if n = "CPTBOX_STDERR_BUFFER_SIZE" then some (size c.errSize) else none) := by
  obtain ⟨e, he, rfl⟩ := Option.map_eq_some_iff.1 h
  refine ⟨e, he, ?_⟩
  rw [look_update_nodup _ _ _ (nodup_getEnv c k e he)]
  congr 1
  simp only [look_cons']
  rfl

private theorem after_append (a b s : List Char) (ha : '=' ∉ a) (hb : '=' ∉ b) (v : List Char) :
    after (a ++ ['=']) (b ++ '=' :: s) = some v ↔ a = b ∧ v = s := by
  induction a generalizing b with
  | nil =>
    cases b with
    | nil => simp [after]; grind
    | cons y b =>
      have : '=' ≠ y := fun e => hb (by rw [← e]; simp)
      simp [after, this]
  | cons x a ih =>
    have hx : x ≠ '=' := fun e => ha (by simp [e])
    cases b with
    | nil => simp [after, hx]
    | cons y b =>
      simp only [List.cons_append, after]
      split
      · rename_i h
        subst h
        rw [ih b (fun h => ha (List.mem_cons_of_mem _ h)) (fun h => hb (List.mem_cons_of_mem _ h))]
        simp
      · rename_i h
        simp [h]

private theorem getenv_envp (d : Dict) (n : String) (hd : (d.map (·.1)).Nodup) (hc : Clean d) (hn : '=' ∉ n.toList)
    (s : List Char) : getenv n (envp d) = some s ↔ ∃ v, look n d = some v ∧ v ≠ .none ∧ s = render v := by
  induction d with
  | nil => simp [envp, getenv, look]
  | cons p d ih =>
    obtain ⟨a, b⟩ := p
    simp only [List.map_cons, List.nodup_cons] at hd
    have hc' : Clean d := fun q hq => hc q (List.mem_cons_of_mem _ hq)
    have ih := ih hd.2 hc'
    have hca : '=' ∉ a.toList := hc (a, b) (by simp)
    by_cases hb : b = .none
    · subst hb
      have h1 : envp ((a, Val.none) :: d) = envp d := by simp [envp]
      rw [h1, ih]
      simp only [look]
      split
      · rename_i h
        subst h
        have : look a d = none := look_none.2 fun q hq e => hd.1 (by rw [← e]; exact List.mem_map_of_mem hq)
        simp [this]
      · rfl
    · have h1 : envp ((a, b) :: d) = (a.toList ++ '=' :: render b) :: envp d := by simp [envp, hb]
      rw [h1]
      simp only [getenv, look]
      split
      · rename_i v hv
        have := (after_append _ _ _ hn hca v).1 hv
        have ha : a = n := String.toList_inj.1 this.1.symm
        rw [if_pos ha]
        simp [hb, this.2, eq_comm]
      · rename_i hv
        have : a ≠ n := by
          rintro rfl
          rw [(after_append _ _ _ hn hca (render b)).2 ⟨rfl, rfl⟩] at hv
          cases hv
        rw [if_neg this, ih]

private theorem default_iff (c : Cfg) (n : String) (v : Val) : Default c n v ↔ v ≠ .none ∧
    (look n (baseEnv c)).or
      (if n = "LD_LIBRARY_PATH" then some (.str ((c.judge "LD_LIBRARY_PATH").getD ""))
       else if n = "LD_PRELOAD" then some (.str c.agent)
       else if n = "CPTBOX_STDOUT_BUFFER_SIZE" then some (size c.outSize)
       else if n = "CPTBOX_STDERR_BUFFER_SIZE" then some (size c.errSize) else none) = some v := by
  rw [look_base]
  constructor
  · intro h
    cases h with
    | lang => simp
    | path s hs => simp [hs]
    | nopath hs => simp [hs]
    | preload => simp
    | forced hu => simp [hu]
    | out z hu hz => simp [hu, hz, size]
    | err z hz => simp [hz, size]
  · rintro ⟨hv, h⟩
    by_cases h1 : n = "LANG"
    · subst h1; simp at h; subst h; exact .lang
    by_cases h2 : n = "LD_LIBRARY_PATH"
    · subst h2
      simp at h
      subst h
      cases hs : c.judge "LD_LIBRARY_PATH" with
      | none => exact .nopath hs
      | some s => exact .path s hs
    by_cases h3 : n = "LD_PRELOAD"
    · subst h3; simp at h; subst h; exact .preload
    by_cases h4 : n = "CPTBOX_STDOUT_BUFFER_SIZE"
    · subst h4
      cases hu : c.unbuffered with
      | true => simp [hu] at h; subst h; exact .forced hu
      | false =>
        simp [hu] at h
        cases hz : c.outSize with
        | none => rw [hz] at h; exact absurd h.symm hv
        | some z => rw [hz] at h; cases h; exact .out z hu hz
    by_cases h5 : n = "CPTBOX_STDERR_BUFFER_SIZE"
    · subst h5
      simp at h
      cases hz : c.errSize with
      | none => rw [hz] at h; exact absurd h.symm hv
      | some z => rw [hz] at h; cases h; exact .err z hz
    · simp [h1, h2, h3, h4, h5] at h

private theorem look_conf (c : Cfg) (conf : Dict) (n : String) (x : Option Val) (v : Val) :
    v ≠ .none ∧ (look n (update (baseEnv c) conf)).or x = some v ↔
      (Configures conf n v ∧ v ≠ .none) ∨ (Unconfigured conf n ∧ v ≠ .none ∧ (look n (baseEnv c)).or x = some v) := by
  rcases look_update (baseEnv c) conf n with ⟨w, h1, h2⟩ | ⟨h1, h2⟩
  · rw [h2]
    simp only [Option.some_or, Option.some.injEq]
    constructor
    · rintro ⟨hv, rfl⟩; exact Or.inl ⟨h1, hv⟩
    · rintro (⟨h, hv⟩ | ⟨h, -⟩)
      · exact ⟨hv, conf_unique h1 h⟩
      · exact absurd h (conf_not h1)
  · rw [h2]
    constructor
    · rintro ⟨hv, h⟩; exact Or.inr ⟨h1, hv, h⟩
    · rintro (⟨h, -⟩ | ⟨-, hv, h⟩)
      · exact absurd h1 (conf_not h)
      · exact ⟨hv, h⟩

private theorem update_nil (d : Dict) : update d [] = d := rfl

private theorem script_eq (c : Cfg) (conf : Option Dict) : scriptEnv c conf = update (baseEnv c) (conf.getD []) := by
  cases conf <;> rfl

private theorem getEnv_form (c : Cfg) (k : Kind) (e : Dict) (h : getEnv c k = some e) (n : String) (hn : n ∉ special k) :
    look n e = look n (update (baseEnv c) (configured k)) := by
  cases k with
  | plain => cases h; rfl
  | gcc conf => cases h; rfl
  | script conf => cases h; rw [script_eq]; rfl
  | shell conf =>
    obtain ⟨p, -, rfl⟩ := Option.map_eq_some_iff.1 h
    rw [look_put, if_neg (by simpa [special] using hn), script_eq]; rfl
  | mono =>
    cases h
    simp only [special, List.mem_cons, List.not_mem_nil, or_false, not_or] at hn
    rw [look_put, if_neg hn.2, look_put, if_neg hn.1]; rfl

private theorem getEnv_special (c : Cfg) (k : Kind) (e : Dict) (h : getEnv c k = some e) (n : String) (hn : n ∈ special k) :
    ∃ s, look n e = some (.str s) ∧ (c.judge n = some s ∧ n = "PATH" ∨ s = "1" ∧ n ≠ "PATH") := by
  cases k with
  | plain => simp [special] at hn
  | gcc conf => simp [special] at hn
  | script conf => simp [special] at hn
  | shell conf =>
    obtain ⟨p, hp, rfl⟩ := Option.map_eq_some_iff.1 h
    simp only [special, List.mem_singleton] at hn
    subst hn
    exact ⟨p, by rw [look_put, if_pos rfl], Or.inl ⟨hp, rfl⟩⟩
  | mono =>
    cases h
    simp only [special, List.mem_cons, List.not_mem_nil, or_false] at hn
    refine ⟨"1", ?_, Or.inr ⟨rfl, ?_⟩⟩
    · rw [look_put, look_put]
      rcases hn with rfl | rfl <;> simp
    · rcases hn with rfl | rfl <;> decide

private theorem look_sees (c : Cfg) (k : Kind) (d : Dict) (h : launchEnv c k = some d) (n : String) (v : Val) :
    look n d = some v ∧ v ≠ .none ↔ Sees c k n v := by
  obtain ⟨e, he, hl⟩ := look_launch c k d h n
  rw [hl]
  by_cases hn : n ∈ special k
  · obtain ⟨s, h1, h2⟩ := getEnv_special c k e he n hn
    rw [h1]
    simp only [Option.some_or, Option.some.injEq]
    constructor
    · rintro ⟨rfl, -⟩; exact .special hn ⟨s, rfl, h2⟩
    · intro hs
      cases hs with
      | special _ hx =>
        obtain ⟨s', rfl, h3⟩ := hx
        refine ⟨?_, by simp⟩
        rcases h2 with ⟨h4, h5⟩ | ⟨h4, h5⟩ <;> rcases h3 with ⟨h6, h7⟩ | ⟨h6, h7⟩
        · rw [h4] at h6; cases h6; rfl
        · exact absurd h5 h7
        · exact absurd h7 h5
        · rw [h4, h6]
      | configured hx _ _ => exact absurd hn hx
      | default hx _ _ => exact absurd hn hx
  · rw [getEnv_form c k e he n hn, and_comm, look_conf, ← default_iff]
    constructor
    · rintro (⟨h1, h2⟩ | ⟨h1, h2⟩)
      · exact .configured hn h1 h2
      · exact .default hn h1 h2
    · intro hs
      cases hs with
      | special hx _ => exact absurd hx hn
      | configured _ h1 h2 => exact Or.inl ⟨h1, h2⟩
      | default _ h1 h2 => exact Or.inr ⟨h1, h2⟩

private theorem mem_update (d e : Dict) (q : String × Val) (h : q ∈ update d e) : q.1 ∈ d.map (·.1) ∨ q.1 ∈ e.map (·.1) := by
  unfold update at h
  induction e generalizing d with
  | nil => exact Or.inl (List.mem_map_of_mem h)
  | cons p e ih =>
    rcases ih _ h with h | h
    · rw [keys_put] at h
      split at h
      · exact Or.inl h
      · rcases List.mem_append.1 h with h | h
        · exact Or.inl h
        · exact Or.inr (by simp at h; simp [h])
    · exact Or.inr (List.mem_cons_of_mem _ h)

private theorem keys_base (c : Cfg) : ∀ n ∈ (baseEnv c).map (·.1), n ∈ everyone := by
  unfold baseEnv
  dsimp only
  split
  · simp [put, everyone]
  · simp [everyone]

private theorem keys_launch (c : Cfg) (k : Kind) (d : Dict) (h : launchEnv c k = some d) :
    ∀ q ∈ d, q.1 ∈ everyone ∨ q.1 ∈ special k ∨ q.1 ∈ (configured k).map (·.1) := by
  intro q hq
  have hv : look q.1 d ≠ none := by
    intro h0
    exact look_none.1 h0 q hq rfl
  obtain ⟨e, he, hl⟩ := look_launch c k d h q.1
  by_cases hs : q.1 ∈ special k
  · exact Or.inr (Or.inl hs)
  rw [hl, getEnv_form c k e he _ hs] at hv
  rcases look_update (baseEnv c) (configured k) q.1 with ⟨w, ⟨a, b, h1, -⟩, -⟩ | ⟨h1, h2⟩
  · exact Or.inr (Or.inr (by rw [h1]; simp))
  · refine Or.inl ?_
    rw [h2, look_base] at hv
    simp only [everyone, List.mem_cons, List.not_mem_nil, or_false]
    grind

private theorem clean_launch (c : Cfg) (k : Kind) (d : Dict) (h : launchEnv c k = some d) (hc : Clean (configured k)) :
    Clean d := by
  intro q hq
  rcases keys_launch c k d h q hq with h | h | h
  · have : ∀ n ∈ everyone, '=' ∉ n.toList := by decide +kernel
    exact this _ h
  · cases k with
    | plain => simp [special] at h
    | gcc conf => simp [special] at h
    | script conf => simp [special] at h
    | shell conf => simp [special] at h; rw [h]; decide
    | mono => simp [special] at h; rcases h with h | h <;> rw [h] <;> decide
  · obtain ⟨r, hr, he⟩ := List.mem_map.1 h
    rw [← he]
    exact hc r hr

private theorem digits_all (s : List Char) (acc : Nat) (hs : ∀ c ∈ s, c.isDigit = true) :
    digits acc s = (Nat.ofDigitChars 10 s acc, []) := by
  induction s generalizing acc with
  | nil => simp [digits]
  | cons c s ih =>
    have hc := hs c (by simp)
    have h2 : '0' ≤ c ∧ c ≤ '9' := by
      simp only [Char.isDigit, Bool.and_eq_true, decide_eq_true_eq, ge_iff_le] at hc
      exact hc
    rw [digits, if_pos h2, ih _ (fun c hc => hs c (List.mem_cons_of_mem _ hc)), Nat.ofDigitChars_cons, Nat.mul_comm]

private theorem natChars_cons (n : Nat) : ∃ c cs, natChars n = c :: cs ∧ '0' ≤ c ∧ c ≤ '9' := by
  have h0 : natChars n ≠ [] := Nat.toDigits_ne_nil
  obtain ⟨c, cs, h⟩ := List.exists_cons_of_ne_nil h0
  have hc : c.isDigit = true := Nat.isDigit_of_mem_toDigits (b := 10) (n := n) (by decide) (by decide)
    (show c ∈ natChars n by simp [h])
  refine ⟨c, cs, h, ?_⟩
  simp only [Char.isDigit, Bool.and_eq_true, decide_eq_true_eq, ge_iff_le] at hc
  exact hc

private theorem digits_nat (n : Nat) : digits 0 (natChars n) = (n, []) := by
  rw [natChars, digits_all _ _ (fun c hc => Nat.isDigit_of_mem_toDigits (b := 10) (n := n) (by decide) (by decide) hc)]
  rw [Nat.ofDigitChars_ten_toDigits]

private theorem digit_plain (c : Char) (h : '0' ≤ c ∧ c ≤ '9') : cspace c = false ∧ c ≠ '-' ∧ c ≠ '+' := by
  have h1 : 48 ≤ c.val.toNat := h.1
  have h2 : c.val.toNat ≤ 57 := h.2
  refine ⟨?_, ?_, ?_⟩
  · simp only [cspace, Bool.or_eq_false_iff, decide_eq_false_iff_not, Bool.and_eq_false_iff]
    refine ⟨?_, Or.inr ?_⟩
    · rintro rfl; revert h1; decide
    · intro h3
      have h3 : c.val.toNat ≤ 13 := h3
      omega
  · rintro rfl; revert h1; decide
  · rintro rfl; revert h1; decide

private theorem strtoul_nat (n : Nat) (hn : n < ulong) : strtoul (natChars n) = (n, []) := by
  obtain ⟨c, cs, h, hc⟩ := natChars_cons n
  obtain ⟨h1, h2, h3⟩ := digit_plain c hc
  have hd := digits_nat n
  rw [h] at hd ⊢
  have hs : sign (c :: cs) = (false, c :: cs) := by
    unfold sign
    split
    · rename_i h; cases h; exact absurd rfl h2
    · rename_i h; cases h; exact absurd rfl h3
    · rfl
  unfold strtoul
  simp only [List.dropWhile_cons, h1, Bool.false_eq_true, if_false, hs, if_pos hc, hd]
  rw [if_neg (by omega)]

/-! ## The properties -/

/-- A program finds in its environment exactly what the judge means to give it: under each name, what the
executor says, else what the configuration says, else the default; and nothing at all under other names. -/
theorem C71_sees (c : Cfg) (k : Kind) (d : Dict) (h : launchEnv c k = some d) (hc : Clean (configured k)) (name : String)
    (hn : '=' ∉ name.toList) (s : List Char) :
    getenv name (envp d) = some s ↔ ∃ v, Sees c k name v ∧ s = render v := by
  rw [getenv_envp d name (nodup_launch c k d h) (clean_launch c k d h hc) hn]
  constructor
  · rintro ⟨v, h1, h2, h3⟩
    exact ⟨v, (look_sees c k d h name v).1 ⟨h1, h2⟩, h3⟩
  · rintro ⟨v, h1, h2⟩
    have := (look_sees c k d h name v).2 h1
    exact ⟨v, this.1, this.2, h2⟩

example : Sees { judge := fun _ => none, agent := "/a" } (.gcc [("LANG", .str "C")]) "LANG" (.str "C") :=
  .configured (by decide) ⟨[], [], rfl, by simp⟩ (by decide)

/-- Nothing of the judge's own environment reaches a program but `LD_LIBRARY_PATH` (and `PATH` for the shell):
two judges that differ in anything else start programs with the same environment. -/
theorem C71_no_leak (c : Cfg) (k : Kind) (judge : String → Option String)
    (h1 : judge "LD_LIBRARY_PATH" = c.judge "LD_LIBRARY_PATH") (h2 : "PATH" ∈ special k → judge "PATH" = c.judge "PATH") :
    launchEnv { c with judge := judge } k = launchEnv c k := by
  have hb : baseEnv { c with judge := judge } = baseEnv c := rfl
  have hs : ∀ conf, scriptEnv { c with judge := judge } conf = scriptEnv c conf := fun conf => by cases conf <;> rfl
  have hg : getEnv { c with judge := judge } k = getEnv c k := by
    cases k with
    | plain => rfl
    | gcc conf => rfl
    | script conf => simp only [getEnv, hs]
    | shell conf => simp only [getEnv, hs, h2 (by simp [special])]
    | mono => rfl
  unfold launchEnv
  rw [hg]
  simp only [h1]

/-- Every string of the environment is a name of the judge's list or of the configuration, followed by `=`. -/
theorem C71_names (c : Cfg) (k : Kind) (d : Dict) (h : launchEnv c k = some d) (e : List Char) (he : e ∈ envp d) :
    ∃ name s, e = name.toList ++ '=' :: s ∧ (name ∈ everyone ∨ name ∈ special k ∨ name ∈ (configured k).map (·.1)) := by
  obtain ⟨q, hq, rfl⟩ := List.mem_map.1 he
  exact ⟨q.1, render q.2, rfl, keys_launch c k d h q (List.mem_filter.1 hq).1⟩

/-- Starting fails for want of an environment only for the shell, if the judge has no `PATH`. -/
theorem C71_starts (c : Cfg) (k : Kind) : launchEnv c k = none ↔ "PATH" ∈ special k ∧ c.judge "PATH" = none := by
  cases k <;> simp [launchEnv, getEnv, special]

/-- Buffering of standard output: an `unbuffered` problem has it off, whatever else was asked for; otherwise it
is what was asked for. (Unless the configuration sets the variable itself.) -/
theorem C71_stdout (c : Cfg) (k : Kind) (d : Dict) (h : launchEnv c k = some d) (hc : Clean (configured k))
    (hu : Unconfigured (configured k) "CPTBOX_STDOUT_BUFFER_SIZE") :
    (c.unbuffered = true → (setbuffersize (envp d)).1 = .unbuffered) ∧
    (∀ b, c.unbuffered = false → Asked c.outSize b → (setbuffersize (envp d)).1 = b) := by
  have hn : '=' ∉ "CPTBOX_STDOUT_BUFFER_SIZE".toList := by decide
  have hsp : "CPTBOX_STDOUT_BUFFER_SIZE" ∉ special k := by cases k <;> simp [special]
  have key := C71_sees c k d h hc _ hn
  have stz : strtoul (natChars 0) = (0, []) := strtoul_nat 0 (by decide)
  refine ⟨fun hb => ?_, fun b hb ha => ?_⟩
  · have := (key _).2 ⟨_, .default hsp hu (.forced hb), rfl⟩
    simp only [setbuffersize, setbuffer, this]
    simp only [render, stz]
    rfl
  · cases hz : c.outSize with
    | none =>
      rw [hz] at ha
      cases ha
      have : getenv "CPTBOX_STDOUT_BUFFER_SIZE" (envp d) = none := by
        cases hg : getenv "CPTBOX_STDOUT_BUFFER_SIZE" (envp d) with
        | none => rfl
        | some s =>
          obtain ⟨v, hv, -⟩ := (key s).1 hg
          cases hv with
          | special hx _ => exact absurd hx hsp
          | configured _ hx _ => exact absurd hu (conf_not hx)
          | default _ _ hx =>
            have := (default_iff _ _ _).1 hx
            rw [look_base] at this
            simp_all [size]
            exact this.1 this.2.symm
      simp only [setbuffersize, setbuffer, this]
    | some z =>
      have := (key _).2 ⟨_, .default hsp hu (.out z hb hz), rfl⟩
      rw [hz] at ha
      simp only [setbuffersize, setbuffer, this]
      cases ha with
      | zero => 
        have : render (.int 0) = natChars 0 := rfl
        simp [this, stz]
      | size n h1 h2 =>
        have : render (.int (n : Int)) = natChars n := rfl
        simp only [this, strtoul_nat n h2]
        rw [if_pos (by omega)]

/-- Buffering of standard error: what was asked for, whether the problem is `unbuffered` or not. -/
theorem C71_stderr (c : Cfg) (k : Kind) (d : Dict) (h : launchEnv c k = some d) (hc : Clean (configured k))
    (hu : Unconfigured (configured k) "CPTBOX_STDERR_BUFFER_SIZE") (b : Buffering) (ha : Asked c.errSize b) :
    (setbuffersize (envp d)).2 = b := by
  have hn : '=' ∉ "CPTBOX_STDERR_BUFFER_SIZE".toList := by decide
  have hsp : "CPTBOX_STDERR_BUFFER_SIZE" ∉ special k := by cases k <;> simp [special]
  have key := C71_sees c k d h hc _ hn
  have stz : strtoul (natChars 0) = (0, []) := strtoul_nat 0 (by decide)
  cases hz : c.errSize with
  | none =>
    rw [hz] at ha
    cases ha
    have : getenv "CPTBOX_STDERR_BUFFER_SIZE" (envp d) = none := by
      cases hg : getenv "CPTBOX_STDERR_BUFFER_SIZE" (envp d) with
      | none => rfl
      | some s =>
        obtain ⟨v, hv, -⟩ := (key s).1 hg
        cases hv with
        | special hx _ => exact absurd hx hsp
        | configured _ hx _ => exact absurd hu (conf_not hx)
        | default _ _ hx =>
            have := (default_iff _ _ _).1 hx
            rw [look_base] at this
            simp_all [size]
            exact this.1 this.2.symm
    simp only [setbuffersize, setbuffer, this]
  | some z =>
    have := (key _).2 ⟨_, .default hsp hu (.err z hz), rfl⟩
    rw [hz] at ha
    simp only [setbuffersize, setbuffer, this]
    cases ha with
    | zero =>
      have : render (.int 0) = natChars 0 := rfl
      simp [this, stz]
    | size n h1 h2 =>
      have : render (.int (n : Int)) = natChars n := rfl
      simp only [this, strtoul_nat n h2]
      rw [if_pos (by omega)]

/-- A size that is followed by something else is none: the stream is left alone. -/
theorem C71_garbage (env : List (List Char)) (name : String) (ds t : List Char) (c : Char) (hd : ds ≠ [])
    (hds : ∀ c ∈ ds, '0' ≤ c ∧ c ≤ '9') (hc : ¬('0' ≤ c ∧ c ≤ '9')) (hg : getenv name env = some (ds ++ c :: t)) :
    setbuffer env name = .untouched := by
  have key : ∀ (ds : List Char) acc, (∀ c ∈ ds, '0' ≤ c ∧ c ≤ '9') → ∃ n, digits acc (ds ++ c :: t) = (n, c :: t) := by
    intro ds
    induction ds with
    | nil => intro acc _; exact ⟨acc, by simp [digits, hc]⟩
    | cons x ds ih =>
      intro acc h
      obtain ⟨n, hn⟩ := ih (acc * 10 + (x.toNat - '0'.toNat)) fun c hc => h c (List.mem_cons_of_mem _ hc)
      exact ⟨n, by rw [List.cons_append, digits, if_pos (h x (by simp)), hn]⟩
  obtain ⟨x, xs, rfl⟩ := List.exists_cons_of_ne_nil hd
  obtain ⟨n, hn⟩ := key (x :: xs) 0 hds
  have hx := hds x (by simp)
  have h1 : cspace x = false := by
    obtain ⟨h1, h2⟩ := hx
    rw [Char.le_def, UInt32.le_iff_toNat_le] at h1
    simp only [cspace, Bool.or_eq_false_iff, Bool.and_eq_false_iff, decide_eq_false_iff_not]
    refine ⟨by rintro rfl; exact absurd h1 (by decide), Or.inr fun h => ?_⟩
    rw [Char.le_def, UInt32.le_iff_toNat_le] at h
    have a : '0'.val.toNat = 48 := rfl
    have b : '\r'.val.toNat = 13 := rfl
    omega
  have h2 : sign (x :: (xs ++ c :: t)) = (false, x :: (xs ++ c :: t)) := by
    unfold sign
    split
    · rename_i h; cases h; exact absurd hx (by decide)
    · rename_i h; cases h; exact absurd hx (by decide)
    · rfl
  have h3 : ∃ m, strtoul (x :: xs ++ c :: t) = (m, c :: t) := by
    unfold strtoul
    rw [List.cons_append, List.dropWhile_cons, if_neg (by simp [h1])]
    dsimp only
    rw [h2]
    dsimp only
    rw [if_pos hx, ← List.cons_append, hn]
    exact ⟨_, rfl⟩
  obtain ⟨m, hm⟩ := h3
  unfold setbuffer
  rw [hg]
  dsimp only
  rw [hm]

example : setbuffer ["CPTBOX_STDOUT_BUFFER_SIZE=64k".toList] "CPTBOX_STDOUT_BUFFER_SIZE" = .untouched := by decide +kernel

/-- An empty size counts as zero. -/
theorem C71_empty (env : List (List Char)) (name : String) (hg : getenv name env = some []) : setbuffer env name = .unbuffered := by
  unfold setbuffer
  rw [hg]
  rfl

/-- A size beyond the numbers of the machine counts as the largest of these. -/
theorem C71_huge (env : List (List Char)) (name : String) (n : Nat) (hg : getenv name env = some (Nat.toDigits 10 n)) (hn : 2 ^ 64 ≤ n) :
    setbuffer env name = .full (2 ^ 64 - 1) := by
  have hm : strtoul (natChars n) = (2 ^ 64 - 1, []) := by
    obtain ⟨c, cs, h, hc⟩ := natChars_cons n
    obtain ⟨h1, h2, h3⟩ := digit_plain c hc
    have hd := digits_nat n
    rw [h] at hd ⊢
    have hs : sign (c :: cs) = (false, c :: cs) := by
      unfold sign
      split
      · rename_i h; cases h; exact absurd rfl h2
      · rename_i h; cases h; exact absurd rfl h3
      · rfl
    unfold strtoul
    simp only [List.dropWhile_cons, h1, Bool.false_eq_true, if_false, hs, if_pos hc, hd]
    rw [if_pos (show n ≥ ulong from hn)]
    rfl
  unfold setbuffer
  rw [hg]
  show (match strtoul (natChars n) with | (n, []) => _ | (_, _ :: _) => _) = _
  rw [hm]
  rfl

example : setbuffer ["CPTBOX_STDOUT_BUFFER_SIZE=99999999999999999999".toList] "CPTBOX_STDOUT_BUFFER_SIZE" = .full (2 ^ 64 - 1) := by decide +kernel

/-- A generator is run with 64 KiB for both streams (problem.py:312-313). -/
example : ∃ d, launchEnv { judge := fun _ => none, agent := "/a", outSize := some 65536, errSize := some 65536 } .plain = some d ∧
    setbuffersize (envp d) = (.full 65536, .full 65536) := by
  refine ⟨_, rfl, ?_⟩
  decide +kernel

/-- The hypothesis of `C71_stdout` about the configuration is needed: it comes last, so that a problem that asks for
unbuffered output does not get it if the configuration gives the variable a value; and with a null for the
library the stream is not looked at at all. -/
theorem C71_config_fails : ∃ (c : Cfg) (k : Kind) (d : Dict), c.unbuffered = true ∧ launchEnv c k = some d ∧
    Clean (configured k) ∧ (setbuffersize (envp d)).1 = .full 4096 ∧ getenv "LD_PRELOAD" (envp d) = none := by
  refine ⟨{ judge := fun _ => none, agent := "/a", unbuffered := true },
    .gcc [("CPTBOX_STDOUT_BUFFER_SIZE", .int 4096), ("LD_PRELOAD", .none)], _, rfl, rfl, ?_, ?_, ?_⟩
  · intro q hq; simp [configured] at hq; rcases hq with rfl | rfl <;> decide
  · decide +kernel
  · decide +kernel

/-- The bound of `Asked` is needed: a negative size is not refused, it asks for a buffer of almost 2⁶⁴ bytes. -/
theorem C71_negative_fails : ∃ (c : Cfg) (d : Dict), c.outSize = some (-1) ∧ launchEnv c .plain = some d ∧
    (setbuffersize (envp d)).1 = .full (2 ^ 64 - 1) := by
  refine ⟨{ judge := fun _ => none, agent := "/a", outSize := some (-1) }, _, rfl, rfl, ?_⟩
  decide +kernel

end Verif.Launch
