import Verif.Model.HelperFs
import Verif.Spec.HelperFs
import Verif.Props.FsPatterns

/-!
# C109 Which files checkers, interactors and generators may use
-/

namespace Verif.HelperFs
open Verif.Regex Verif.FsPatterns Verif.FsPatterns.Spec Verif.HelperFs.Spec

variable (u : Chars)

/-! ## A name as a pattern -/

private theorem plain_ordinary (s : State) (c : Char) (h : c ∉ meaningful) : plainStep s c = some (s.add (.chr c)) := by
  unfold plainStep
  split
  all_goals first | rfl | exact absurd (by decide) h

private theorem ordinary_fold (w : Str) : ∀ s : State, s.mode = .plain → Ordinary w → w.foldlM step s = some (s.lits w) := by
  induction w with
  | nil => intro s _ _; simp [State.lits]
  | cons c w ih =>
    intro s hs ho
    have e1 : step s c = some (s.add (.chr c)) := by unfold step; rw [hs]; exact plain_ordinary s c (ho c (by simp))
    rw [List.foldlM_cons, e1]
    show w.foldlM step (s.add (.chr c)) = _
    rw [ih _ rfl (fun d hd => ho d (by simp [hd]))]
    obtain ⟨m, top, rest⟩ := s
    cases hs
    simp [State.lits, State.add, Frame.add]

theorem parse_ordinary (w : Str) (h : Ordinary w) : parse w = some (seqs (w.map .chr)) := by
  unfold parse
  rw [ordinary_fold w {} rfl h]
  simp [State.lits, State.done, Frame.re, altsOf]

theorem part_ordinary (pid : Nat) (w : Str) (h : Ordinary w) (path : Str) :
    (∃ t, format pid w = some t ∧ (parse t).isSome = true) ∧ (PartAccepts u pid (some w) path ↔ w <+: path) := by
  have hf : format pid w = some w := by
    apply format_plain
    intro c hc
    have := h c hc
    constructor <;> rintro rfl <;> exact this (by decide)
  refine ⟨⟨_, hf, by rw [parse_ordinary w h]; rfl⟩, ?_⟩
  constructor
  · rintro ⟨p, t, r, hp, ht, hr, x, hm⟩
    cases hp
    rw [hf] at ht
    cases ht
    rw [parse_ordinary w h] at hr
    cases hr
    exact ⟨x, ((M_lits u w path x).1 hm).symm⟩
  · rintro ⟨x, hx⟩
    exact ⟨_, _, _, rfl, hf, parse_ordinary w h, x, (M_lits u w path x).2 hx.symm⟩

/-! ## Names of `tempfile` -/

private theorem tempName_prefix (dir rand : Str) : dir <+: tempName dir rand := by
  unfold tempName join
  split
  · exact ⟨_, rfl⟩
  · exact ⟨_, rfl⟩

private theorem tempName_shape (dir rand : Str) : ∃ before, tempName dir rand = before ++ ("tmp".toList ++ rand) ∧ (before = dir ∨ before = dir ++ ['/']) := by
  unfold tempName join
  split
  · exact ⟨_, rfl, .inl rfl⟩
  · exact ⟨dir ++ ['/'], by simp, .inr rfl⟩

private theorem tempName_same (dir rand rand' : Str) (hl : rand.length = rand'.length) (h : tempName dir rand <+: tempName dir rand') : rand = rand' := by
  have hlen : (tempName dir rand).length = (tempName dir rand').length := by
    unfold tempName join
    split <;> simp [hl]
  have he := h.eq_of_length hlen
  unfold tempName join at he
  split at he <;> simpa using he

/-! ## What helper programs read -/

/-- **C109 (reading).** A helper program reads what every program of its language may read, its own directory, and everything whose path begins with the
temporary directory of the system, if that has an ordinary name. -/
theorem C109_reads (pid : Nat) (dir : Str) (hdir : ∀ c ∈ dir, c ≠ '{' ∧ c ≠ '}') (own extra : List Str) (more : List (Option Str)) (system : Str)
    (hs : Ordinary system)
    (h : ∀ x ∈ own.map some ++ extra.map some ++ more, ∃ p t, x = some p ∧ format pid p = some t ∧ (parse t).isSome = true) :
    ∃ k, jailRe pid (helperParts own extra system dir more) = some k ∧ ∀ path, Accepts u k path ↔
      (∃ e ∈ readable pid dir, Covers e path) ∨ (∃ x ∈ own.map some ++ extra.map some ++ more, PartAccepts u pid x path) ∨ system <+: path := by
  obtain ⟨k, hk, ha⟩ := C64_read u pid dir hdir (own ++ [system]) extra more (by
    intro x hx
    by_cases he : x = some system
    · subst he
      obtain ⟨t, h1, h2⟩ := (part_ordinary u pid system hs []).1
      exact ⟨_, t, rfl, h1, h2⟩
    · exact h x (by
        simp only [List.map_append, List.map_cons, List.map_nil, List.mem_append, List.mem_cons, List.not_mem_nil, or_false] at hx ⊢
        tauto))
  refine ⟨k, hk, fun path => (ha path).trans (or_congr Iff.rfl ?_)⟩
  rw [← (part_ordinary u pid system hs path).2]
  simp only [List.map_append, List.map_cons, List.map_nil, List.mem_append, List.mem_cons, List.not_mem_nil, or_false]
  constructor
  · rintro ⟨x, hx, hp⟩
    rcases hx with ((hx | hx) | hx) | hx
    · exact .inl ⟨x, .inl (.inl hx), hp⟩
    · subst hx; exact .inr hp
    · exact .inl ⟨x, .inl (.inr hx), hp⟩
    · exact .inl ⟨x, .inr hx, hp⟩
  · rintro (⟨x, hx, hp⟩ | hp)
    · rcases hx with (hx | hx) | hx
      · exact ⟨x, .inl (.inl (.inl hx)), hp⟩
      · exact ⟨x, .inl (.inr hx), hp⟩
      · exact ⟨x, .inr hx, hp⟩
    · exact ⟨_, .inl (.inl (.inr rfl)), hp⟩

/-- **C109 (files of the case).** A helper program that opens a file made for it, without asking to write, is let through: for every executor, every name and every
temporary directory with an ordinary name. -/
theorem C109_opens (s : Isolate.Stop) (dir : Str) (hdir : ∀ c ∈ dir, c ≠ '{' ∧ c ≠ '}') (own extra : List Str) (more : List (Option Str)) (system rand : Str)
    (hs : Ordinary system)
    (h : ∀ x ∈ own.map some ++ extra.map some ++ more, ∃ p t, x = some p ∧ format s.pid p = some t ∧ (parse t).isSome = true)
    (k : Re) (hk : jailRe s.pid (helperParts own extra system dir more) = some k) (hrf : ∀ path, (∃ f ∈ s.readFs, f path = true) ↔ Accepts u k path)
    (arg flagReg : Nat) (isOpen : Bool) (dirfd : BitVec 64) (bytes : List UInt8)
    (hP : 0 < s.page) (hpeek : s.usePeek = false) (h0 : ReadStr.effective s.is32 (s.regs arg).toNat ≠ 0)
    (hb : ReadStr.StringAt s.mem.byte (ReadStr.effective s.is32 (s.regs arg).toNat) bytes) (hlen : bytes.length ≤ 4096)
    (hp : ReadStr.PagesReadable s.mem s.page (ReadStr.effective s.is32 (s.regs arg).toNat) bytes.length)
    (hd : s.decode bytes = some (caseFile system rand)) (habs : system.head? = some '/')
    (hnorm : Path.render (Path.walk (Path.components (caseFile system rand))) = caseFile system rand)
    (hw : ¬ (isOpen = true ∧ Isolate.WantsWrite (s.regs flagReg))) :
    Isolate.checkFile s arg flagReg isOpen dirfd = .exec := by
  obtain ⟨k', hk', ha⟩ := C109_reads u s.pid dir hdir own extra more system hs h
  rw [hk] at hk'
  cases hk'
  have hhead : (caseFile system rand).head? = some '/' := by
    obtain ⟨t, ht⟩ := tempName_prefix system rand
    unfold caseFile
    rw [← ht]
    cases system with
    | nil => simp at habs
    | cons a l => simpa using habs
  refine (Isolate.C34_complete s arg flagReg isOpen dirfd bytes _ _ hP hpeek h0 hb hlen hp hd (.inl hhead) (.inl ⟨hhead, rfl⟩)).2 (.inr ⟨hw, ?_⟩)
  rw [hnorm]
  exact (hrf _).2 ((ha _).2 (.inr (.inr (tempName_prefix _ _))))

/-- **C109 (writing).** No helper program writes to a file made for it, whatever the temporary directory: it may write to the three device files only. -/
theorem C109_writes (pid : Nat) (system rand : Str) (hr : Random rand) :
    ∃ k, jailRe pid (writeParts []) = some k ∧ ¬ Accepts u k (caseFile system rand) := by
  obtain ⟨k, hk, ha⟩ := C64_write u pid [] (by simp)
  refine ⟨k, hk, fun h => ?_⟩
  rcases (ha _).1 h with ⟨e, he, hc⟩ | ⟨p, hp, -⟩
  · obtain ⟨before, hb, -⟩ := tempName_shape system rand
    have key : ∀ w : Str, caseFile system rand = w → w.drop (w.length - 11) = 't' :: 'm' :: 'p' :: rand := by
      rintro w rfl
      unfold caseFile
      rw [hb]
      have : (before ++ ("tmp".toList ++ rand)).length - 11 = before.length := by
        simp [hr.1]
      rw [this, List.drop_left]
      rfl
    simp only [writable, List.map_cons, List.map_nil, List.mem_cons, List.not_mem_nil, or_false] at he
    rcases he with rfl | rfl | rfl <;> rcases hc with hc | hc <;> exact absurd (key _ hc) (by simp)
  · cases hp

/-- **C109 (submissions).** Under a temporary directory in a hidden place, such as `/tmp`, no submission reads a file made for a helper program, unless the patterns of its
language let it through: each has its own name. -/
theorem C109_submission (pid : Nat) (st : String) (hst : st ∈ hiddenStems) (system rand rand' : Str) (hr : Random rand) (hr' : Random rand') (hne : rand ≠ rand')
    (hdir : ∀ c ∈ workDir none none system rand, c ≠ '{' ∧ c ≠ '}') (hp : st.toList <+: caseFile system rand')
    (own extra : List Str) (more : List (Option Str))
    (h : ∀ x ∈ own.map some ++ extra.map some ++ more, ∃ p t, x = some p ∧ format pid p = some t ∧ (parse t).isSome = true) :
    ∃ k, jailRe pid (readParts own extra (workDir none none system rand) more) = some k ∧
      (Accepts u k (caseFile system rand') ↔ ∃ x ∈ own.map some ++ extra.map some ++ more, PartAccepts u pid x (caseFile system rand')) := by
  obtain ⟨k, hk, ha⟩ := C64_read u pid _ hdir own extra more h
  refine ⟨k, hk, (ha _).trans ⟨?_, .inr⟩⟩
  rintro (hc | hc)
  · exact absurd (tempName_same system rand rand' (by rw [hr.1, hr'.1]) (C64_hidden pid _ st hst _ hp hc)) hne
  · exact hc

/-- **C109 (a place of their own).** With a configured `tempdir` in a hidden place outside the temporary directory of the system no helper program reads anything of a
submission, unless the patterns of its language let it through; its own program may be kept anywhere else. -/
theorem C109_apart (pid : Nat) (st : String) (hst : st ∈ hiddenStems) (system configured rand dir rest : Str) (hs : Ordinary system)
    (hc : configured ≠ []) (hp : st.toList <+: workDir none (some configured) system rand) (hdir : ∀ c ∈ dir, c ≠ '{' ∧ c ≠ '}')
    (hout : ¬ system <+: workDir none (some configured) system rand ++ '/' :: rest) (hother : ¬ dir <+: workDir none (some configured) system rand ++ '/' :: rest)
    (own extra : List Str) (more : List (Option Str))
    (h : ∀ x ∈ own.map some ++ extra.map some ++ more, ∃ p t, x = some p ∧ format pid p = some t ∧ (parse t).isSome = true) :
    ∃ k, jailRe pid (helperParts own extra system dir more) = some k ∧
      (Accepts u k (workDir none (some configured) system rand ++ '/' :: rest) ↔
        ∃ x ∈ own.map some ++ extra.map some ++ more, PartAccepts u pid x (workDir none (some configured) system rand ++ '/' :: rest)) := by
  obtain ⟨k, hk, ha⟩ := C109_reads u pid dir hdir own extra more system hs h
  refine ⟨k, hk, (ha _).trans ⟨?_, fun h => .inr (.inl h)⟩⟩
  rintro (h1 | h1 | h1)
  · exact absurd (C64_hidden pid dir st hst _ (hp.trans ⟨_, rfl⟩) h1) hother
  · exact h1
  · exact absurd h1 hout

/-- **C109 (where directories are).** The directory of a submission is below the configured `tempdir`, that of a kept helper program below the configured
`compiled_binary_cache_dir`; where these are not given, and for the files of the case in any case, it is the temporary directory of the system. -/
theorem C109_where (system : Str) (hs : system ≠ [] ∧ system.getLast? ≠ some '/') (rand : Str) (conf cache : Str) (hc : conf ≠ [] ∧ conf.getLast? ≠ some '/')
    (hk : cache ≠ [] ∧ cache.getLast? ≠ some '/') :
    (∀ cacheDir, Below conf (workDir (destOf false cacheDir) (some conf) system rand)) ∧
    (∀ configured, Below cache (workDir (destOf true (some cache)) configured system rand)) ∧
    Below conf (workDir (destOf true none) (some conf) system rand) ∧
    (∀ cached, Below system (workDir (destOf cached none) none system rand)) ∧ Below system (caseFile system rand) := by
  have key : ∀ d : Str, d ≠ [] ∧ d.getLast? ≠ some '/' → Below d (tempName d rand) := by
    intro d hd
    refine ⟨"tmp".toList ++ rand, ?_⟩
    unfold tempName join
    rw [if_neg (by simp [hd.1, hd.2])]
  have or1 : ∀ (d : Str) (o : Option Str), d ≠ [] → orElse (some d) o = some d := by
    intro d o hd
    cases d with
    | nil => exact absurd rfl hd
    | cons c d => rfl
  refine ⟨fun o => ?_, fun o => ?_, ?_, fun b => ?_, key system hs⟩
  · exact key conf hc
  · show Below cache (tempName ((orElse (some cache) o).getD system) rand)
    rw [or1 cache o hk.1]
    exact key cache hk
  · exact key conf hc
  · cases b <;> exact key system hs

/-- **C109 (names).** A final slash of the temporary directory makes no difference, and that directory may be the root. -/
theorem C109_slash (d : Str) (hd : d ≠ [] ∧ d.getLast? ≠ some '/') (rand : Str) :
    caseFile (d ++ ['/']) rand = caseFile d rand ∧ caseFile ['/'] rand = "/tmp".toList ++ rand := by
  constructor
  · simp [caseFile, tempName, join, hd.1, hd.2]
  · simp [caseFile, tempName, join]

example : ("/var/tmp".toList ≠ [] ∧ "/var/tmp".toList.getLast? ≠ some '/') ∧ caseFile "/var/tmp/".toList "ab".toList = "/var/tmp/tmpab".toList := by
  decide +kernel

/-- **C109 (nothing left).** The files of a case are there, each with its content, while the helper program runs, and gone afterwards, also if it fails or one of them cannot be made;
the other files of the directory stay. -/
theorem C109_left {β : Type} (room : Str → Bytes → Bool) (files : List (Str × Bytes)) (disk : Disk) (body : Disk → β)
    (hn : (files.map (·.1)).Nodup) (hf : ∀ n ∈ files.map (·.1), ∀ e ∈ disk, e.1 ≠ n) :
    (withFiles room files disk body).2 = disk ∧
    ((∀ f ∈ files, room f.1 f.2 = true) → ∃ d, (withFiles room files disk body).1 = some (body d) ∧ ∀ e, e ∈ d ↔ e ∈ files ∨ e ∈ disk) ∧
    ((∃ f ∈ files, room f.1 f.2 = false) → (withFiles room files disk body).1 = none) := by
  induction files generalizing disk with
  | nil => exact ⟨rfl, fun _ => ⟨disk, rfl, by simp⟩, by simp⟩
  | cons f l ih =>
    obtain ⟨n, b⟩ := f
    simp only [List.map_cons, List.nodup_cons] at hn
    have hfresh : ∀ e ∈ disk, e.1 ≠ n := hf n (by simp)
    obtain ⟨i1, i2, i3⟩ := ih ((n, b) :: disk) hn.2 (by
      intro m hm e he
      rcases List.mem_cons.1 he with rfl | he
      · rintro rfl; exact hn.1 hm
      · exact hf m (by simp [hm]) e he)
    have hfil : ((n, b) :: disk).filter (fun e => e.1 ≠ n) = disk := by
      rw [List.filter_cons_of_neg (by simp), List.filter_eq_self]
      intro e he
      simpa using hfresh e he
    unfold withFiles
    by_cases hroom : room n b = true
    · rw [if_pos hroom]
      refine ⟨by show (withFiles room l ((n, b) :: disk) body).2.filter _ = disk; rw [i1]; exact hfil, fun hall => ?_, ?_⟩
      · obtain ⟨d, h1, h2⟩ := i2 (fun f hf => hall f (by simp [hf]))
        refine ⟨d, h1, fun e => (h2 e).trans ?_⟩
        simp only [List.mem_cons]
        tauto
      · rintro ⟨f, hm, hr⟩
        rcases List.mem_cons.1 hm with rfl | hm
        · rw [hroom] at hr; cases hr
        · exact i3 ⟨f, hm, hr⟩
    · rw [if_neg hroom]
      refine ⟨rfl, fun hall => absurd (hall (n, b) (by simp)) hroom, fun _ => rfl⟩

/-! ## Where it fails -/

/-- **C109, where it fails: submissions.** Without a configured `tempdir` a helper program reads whatever is in the directory of any submission being judged, not only the output it is
given. -/
theorem C109_submissions_fails (pid : Nat) (dir : Str) (hdir : ∀ c ∈ dir, c ≠ '{' ∧ c ≠ '}') (system rand rest : Str) (hs : Ordinary system) :
    ∃ k, jailRe pid (helperParts [] [] system dir []) = some k ∧ Accepts u k (workDir none none system rand ++ rest) := by
  obtain ⟨k, hk, ha⟩ := C109_reads u pid dir hdir [] [] [] system hs (by simp)
  refine ⟨k, hk, (ha _).2 (.inr (.inr ?_))⟩
  exact (tempName_prefix system rand).trans ⟨_, rfl⟩

/-- **C109, where it fails: other cases.** Nor are the files of other cases, judged by another judge on the machine, closed to it: their answers are readable. -/
theorem C109_answers_fails (pid : Nat) (dir : Str) (hdir : ∀ c ∈ dir, c ≠ '{' ∧ c ≠ '}') (system rand : Str) (hs : Ordinary system) :
    ∃ k, jailRe pid (helperParts [] [] system dir []) = some k ∧ Accepts u k (caseFile system rand) := by
  obtain ⟨k, hk, h⟩ := C109_submissions_fails u pid dir hdir system rand [] hs
  exact ⟨k, hk, by rw [List.append_nil] at h; exact h⟩

/-- **C109, where it fails: names that begin alike.** The directory is not closed by a slash. -/
theorem C109_prefix_fails (pid : Nat) (dir : Str) (hdir : ∀ c ∈ dir, c ≠ '{' ∧ c ≠ '}') (rest : Str) :
    ∃ k, jailRe pid (helperParts [] [] "/tmp".toList dir []) = some k ∧ Accepts u k ("/tmp2/secret".toList ++ rest) := by
  obtain ⟨k, hk, ha⟩ := C109_reads u pid dir hdir [] [] [] "/tmp".toList (by decide) (by simp)
  exact ⟨k, hk, (ha _).2 (.inr (.inr ⟨"2/secret".toList ++ rest, rfl⟩))⟩

/-- **C109, where it fails: a name with a meaning.** Under `/tmp/a+b` a helper program cannot open the files it is given: the name is taken for a pattern. -/
theorem C109_plus_fails (pid : Nat) (rand rand' : Str) (hr : Random rand) (hr' : Random rand') (hne : rand ≠ rand')
    (hdir : ∀ c ∈ rand, c ≠ '{' ∧ c ≠ '}') :
    ∃ k, jailRe pid (helperParts [] [] "/tmp/a+b".toList (workDir none none "/tmp/a+b".toList rand) []) = some k ∧
      ¬ Accepts u k (caseFile "/tmp/a+b".toList rand') := by
  have hparse : parse "/tmp/a+b".toList = some (.seq (.chr '/') (.seq (.chr 't') (.seq (.chr 'm') (.seq (.chr 'p') (.seq (.chr '/')
      (.seq (.seq (.chr 'a') (.star (.chr 'a'))) (.seq (.chr 'b') .eps))))))) := by rfl
  have hfmt : format pid "/tmp/a+b".toList = some "/tmp/a+b".toList := format_plain pid _ (by decide)
  have hname : ∀ r, tempName "/tmp/a+b".toList r = "/tmp/a+b/tmp".toList ++ r := fun r => rfl
  obtain ⟨k, hk, ha⟩ := C64_read u pid (workDir none none "/tmp/a+b".toList rand) (by
    show ∀ c ∈ tempName "/tmp/a+b".toList rand, _
    rw [hname]
    intro c hc
    rcases List.mem_append.1 hc with hc | hc
    · exact (by decide : ∀ c ∈ "/tmp/a+b/tmp".toList, c ≠ '{' ∧ c ≠ '}') c hc
    · exact hdir c hc) ["/tmp/a+b".toList] [] [] (by
    intro x hx
    simp only [List.map_cons, List.map_nil, List.append_nil, List.mem_cons, List.not_mem_nil, or_false] at hx
    subst hx
    exact ⟨_, _, rfl, hfmt, by rw [hparse]; rfl⟩)
  refine ⟨k, hk, fun h => ?_⟩
  rcases (ha _).1 h with h | ⟨x, hx, p, t, r, hp, ht, hr1, y, hm⟩
  · exact hne (tempName_same _ rand rand' (by rw [hr.1, hr'.1]) (C64_hidden pid _ "/tmp/" (by decide) _ ⟨"a+b/tmp".toList ++ rand', rfl⟩ h))
  · simp only [List.map_cons, List.map_nil, List.append_nil, List.mem_cons, List.not_mem_nil, or_false] at hx
    subst hx
    cases hp
    rw [hfmt] at ht
    cases ht
    rw [hparse] at hr1
    cases hr1
    obtain ⟨m1, h1, m2, h2, m3, h3, m4, h4, m5, h5, m6, ⟨m7, h6, h7⟩, m8, h8, -⟩ := hm
    change "/tmp/a+b/tmp".toList ++ rand' = '/' :: m1 at h1
    cases h1
    cases h2
    cases h3
    cases h4
    cases h5
    cases h6
    rcases Relation.ReflTransGen.cases_head h7 with rfl | ⟨z, hz, -⟩
    · cases h8
    · cases hz

/-- **C109, where it fails: braces.** Under a directory with a single brace in its name every file a helper program opens is an error of the judge. -/
theorem C109_brace_fails (pid : Nat) (own extra : List Str) (dir : Str) (more : List (Option Str)) :
    jailRe pid (helperParts own extra "/tmp/{judge}".toList dir more) = none := by
  refine C64_raises pid _ (some "/tmp/{judge}".toList) ?_ rfl
  unfold helperParts readParts
  simp

/-- The hypotheses of the theorems are met. -/
example : Ordinary "/tmp".toList ∧ Random "k3_x9abz".toList ∧ caseFile "/tmp".toList "k3_x9abz".toList = "/tmp/tmpk3_x9abz".toList ∧
    Path.render (Path.walk (Path.components "/tmp/tmpk3_x9abz".toList)) = "/tmp/tmpk3_x9abz".toList := by
  refine ⟨by decide, ⟨by decide, by decide⟩, by decide, by decide +kernel⟩
example : "/tmp/" ∈ hiddenStems ∧ "/tmp/".toList <+: caseFile "/tmp".toList "k3_x9abz".toList ∧
    ∀ c ∈ workDir none none "/tmp".toList "aaaaaaaa".toList, c ≠ '{' ∧ c ≠ '}' := by decide
example : "/var" ∈ hiddenStems ∧ "/var".toList <+: workDir none (some "/var/judge".toList) "/tmp".toList "aaaaaaaa".toList ∧
    ¬ "/tmp".toList <+: workDir none (some "/var/judge".toList) "/tmp".toList "aaaaaaaa".toList ++ '/' :: "a.out".toList ∧
    ¬ workDir (destOf true (some "/var/cache".toList)) (some "/var/judge".toList) "/tmp".toList "bbbbbbbb".toList <+:
      workDir none (some "/var/judge".toList) "/tmp".toList "aaaaaaaa".toList ++ '/' :: "a.out".toList := by decide
example : withFiles (fun _ b => b.length < 3) [("a".toList, [1]), ("b".toList, [2, 2])] [("c".toList, [])] (fun d => d.length) = (some 3, [("c".toList, [])]) ∧
    withFiles (fun _ b => b.length < 2) [("a".toList, [1]), ("b".toList, [2, 2])] [("c".toList, [])] (fun d => d.length) = (none, [("c".toList, [])]) := by decide

end Verif.HelperFs
