import Verif.Spec.Connect
import Verif.Props.Net

/-! # C77: connecting to the site -/

namespace Verif.Props

open Verif.Net Verif.Connect

namespace Connect

theorem dial_ok : ∀ l, (dial l).2 = some (.ok ()) ↔ Reached l
  | [] => ⟨nofun, fun ⟨n, r, h⟩ => by cases n <;> simp [List.replicate_succ] at h⟩
  | .eintr :: l => by
    rw [dial, dial_ok l]
    constructor
    · rintro ⟨n, r, rfl⟩; exact ⟨n + 1, r, rfl⟩
    · rintro ⟨n, r, h⟩
      cases n with
      | zero => simp at h
      | succ n => exact ⟨n, r, by simpa [List.replicate_succ] using h⟩
  | .fail :: l => ⟨nofun, fun ⟨n, r, h⟩ => by cases n <;> simp [List.replicate_succ] at h⟩
  | .ok :: l => ⟨fun _ => ⟨0, l, rfl⟩, fun _ => rfl⟩

theorem dial_fail : ∀ l, (∃ e, (dial l).2 = some (.error e)) ↔ Unreached l
  | [] => ⟨(fun ⟨_, h⟩ => nomatch h), fun ⟨n, r, h⟩ => by cases n <;> simp [List.replicate_succ] at h⟩
  | .eintr :: l => by
    rw [dial, dial_fail l]
    constructor
    · rintro ⟨n, r, rfl⟩; exact ⟨n + 1, r, rfl⟩
    · rintro ⟨n, r, h⟩
      cases n with
      | zero => simp at h
      | succ n => exact ⟨n, r, by simpa [List.replicate_succ] using h⟩
  | .fail :: l => ⟨fun _ => ⟨0, l, rfl⟩, fun _ => ⟨_, rfl⟩⟩
  | .ok :: l => ⟨(fun ⟨_, h⟩ => nomatch h), fun ⟨n, r, h⟩ => by cases n <;> simp [List.replicate_succ] at h⟩

theorem dial_err (l : List Dial) (e : Exn) (h : (dial l).2 = some (.error e)) : e = .os := by
  fun_induction dial l <;> grind

theorem dial_events (l : List Dial) : ∀ e ∈ (dial l).1, e = .dial := by
  fun_induction dial l <;> grind

theorem dial_count (l : List Dial) (n : Nat) (d : Dial) (rest : List Dial) (hd : d ≠ .eintr)
    (h : l = List.replicate n .eintr ++ d :: rest) : (dial l).1 = List.replicate (n + 1) .dial := by
  subst h
  induction n with
  | zero =>
    cases d with
    | eintr => exact absurd rfl hd
    | fail => rfl
    | ok => rfl
  | succ n ih => simpa [List.replicate_succ, dial] using ih

theorem unpack_length {s : Bytes} {n : Nat} (h : unpack s = some n) : s.length = 4 := by
  unfold unpack at h
  split at h
  · rfl
  · exact nomatch h

/-- The first packet, as `answer` reads it. -/
theorem first_iff (C : Codec Json) (s : Bytes) (j : Json) (rest : Bytes) : First C s j rest ↔
    ∃ n b, unpack (s.take 4) = some n ∧ C.decompress ((s.drop 4).take n) = some b ∧ C.loads b = some j ∧
      rest = (s.drop 4).drop n := by
  constructor
  · intro h
    cases h with
    | @whole hd body rest b j h hb hj =>
      have h4 := unpack_length h
      have e1 : (hd ++ (body ++ rest)).take 4 = hd := by rw [← h4]; simp
      have e2 : (hd ++ (body ++ rest)).drop 4 = body ++ rest := by rw [← h4]; simp
      refine ⟨_, b, by rw [e1]; exact h, ?_, hj, ?_⟩
      · rw [e2]; simpa using hb
      · rw [e2]; simp
    | @short hd body n b j h hn hb hj =>
      have h4 := unpack_length h
      have e1 : (hd ++ body).take 4 = hd := by rw [← h4]; simp
      have e2 : (hd ++ body).drop 4 = body := by rw [← h4]; simp
      refine ⟨_, b, by rw [e1]; exact h, ?_, hj, ?_⟩
      · rw [e2, List.take_of_length_le (by omega)]; exact hb
      · rw [e2, List.drop_eq_nil_of_le (by omega)]
  · rintro ⟨n, b, h, hb, hj, rfl⟩
    have hs : s = s.take 4 ++ ((s.drop 4).take n ++ (s.drop 4).drop n) := by
      rw [List.take_append_drop, List.take_append_drop]
    by_cases hl : n ≤ (s.drop 4).length
    · have : ((s.drop 4).take n).length = n := by rw [List.length_take]; omega
      have := First.whole (rest := (s.drop 4).drop n) (by rw [this]; exact h) hb hj
      rw [← hs] at this
      exact this
    · have h1 : (s.drop 4).take n = s.drop 4 := List.take_of_length_le (by omega)
      have h2 : (s.drop 4).drop n = [] := List.drop_eq_nil_of_le (by omega)
      rw [h1] at hb
      have := First.short (body := s.drop 4) h (by omega) hb hj
      rw [List.take_append_drop] at this
      rw [h2]
      exact this

theorem lookup_named (l : List (String × Json)) (v : Json) : l.lookup "name" = some v ↔ Named (.obj l) v := by
  constructor
  · intro h
    induction l with
    | nil => exact nomatch h
    | cons x l ih =>
      obtain ⟨k, y⟩ := x
      by_cases hk : k = "name"
      · subst hk
        simp only [List.lookup, BEq.rfl, Option.some.injEq] at h
        subst h
        exact ⟨[], l, rfl, nofun⟩
      · have : ("name" == k) = false := by simpa [beq_eq_false_iff_ne] using fun e => hk e.symm
        rw [List.lookup, this] at h
        obtain ⟨a, b, ha, hn⟩ := ih h
        cases ha
        refine ⟨(k, y) :: a, b, rfl, ?_⟩
        intro x hx
        rcases List.mem_cons.1 hx with rfl | hx
        · exact hk
        · exact hn x hx
  · rintro ⟨a, b, h, hn⟩
    cases h
    induction a with
    | nil => simp [List.lookup]
    | cons x a ih =>
      have : ("name" == x.1) = false := by
        have := hn x (.head _)
        simpa [beq_eq_false_iff_ne] using fun e => this e.symm
      rw [List.cons_append, List.lookup, this]
      exact ih fun y hy => hn y (.tail _ hy)

theorem named_obj {j v : Json} (h : Named j v) : ∃ l, j = .obj l := by
  obtain ⟨a, b, h, -⟩ := h
  exact ⟨_, h⟩

/-- All the ways `answer` ends. -/
theorem answer_cases (C : Codec Json) (s : Bytes) :
    (∀ rest, answer C s = .online rest ↔ ∃ j, First C s j rest ∧ Named j (.str "handshake-success")) ∧
    (answer C s = .raised .other ↔ ∃ j rest, First C s j rest ∧ ¬ HasName j) ∧
    answer C s ≠ .raised .os ∧ answer C s ≠ .exit ∧ answer C s ≠ .waiting := by
  simp only [first_iff]
  unfold answer
  cases h1 : unpack (s.take 4) with
  | none => simp
  | some n =>
    dsimp only
    cases h2 : C.decompress ((s.drop 4).take n) with
    | none => simp [h2]
    | some b =>
      dsimp only
      cases h3 : C.loads b with
      | none => simp [h2, h3]
      | some j =>
        have uniq : ∀ (Q : Json → Bytes → Prop), (∃ j' rest, (∃ n' b', some n = some n' ∧ C.decompress ((s.drop 4).take n') = some b' ∧
            C.loads b' = some j' ∧ rest = (s.drop 4).drop n') ∧ Q j' rest) ↔ Q j ((s.drop 4).drop n) := by
          intro Q
          constructor
          · rintro ⟨j', rest, ⟨n', b', hn, hb, hj, rfl⟩, hq⟩
            cases hn
            rw [h2] at hb; cases hb
            rw [h3] at hj; cases hj
            exact hq
          · intro hq
            exact ⟨j, _, ⟨n, b, rfl, h2, h3, rfl⟩, hq⟩
        have uniq1 : ∀ rest, (∃ j', (∃ n' b', some n = some n' ∧ C.decompress ((s.drop 4).take n') = some b' ∧
            C.loads b' = some j' ∧ rest = (s.drop 4).drop n') ∧ Named j' (.str "handshake-success")) ↔
            rest = (s.drop 4).drop n ∧ Named j (.str "handshake-success") := by
          intro rest
          constructor
          · rintro ⟨j', ⟨n', b', hn, hb, hj, rfl⟩, hq⟩
            cases hn
            rw [h2] at hb; cases hb
            rw [h3] at hj; cases hj
            exact ⟨rfl, hq⟩
          · rintro ⟨rfl, hq⟩
            exact ⟨j, ⟨n, b, rfl, h2, h3, rfl⟩, hq⟩
        rw [uniq fun j _ => ¬ HasName j]
        simp only [uniq1]
        cases j with
        | str s =>
          refine ⟨fun rest => ⟨nofun, ?_⟩, ⟨fun _ => ?_, fun _ => rfl⟩, nofun, nofun, nofun⟩
          · rintro ⟨-, h⟩; obtain ⟨l, h⟩ := named_obj h; exact nomatch h
          · rintro ⟨v, h⟩; obtain ⟨l, h⟩ := named_obj h; exact nomatch h
        | other =>
          refine ⟨fun rest => ⟨nofun, ?_⟩, ⟨fun _ => ?_, fun _ => rfl⟩, nofun, nofun, nofun⟩
          · rintro ⟨-, h⟩; obtain ⟨l, h⟩ := named_obj h; exact nomatch h
          · rintro ⟨v, h⟩; obtain ⟨l, h⟩ := named_obj h; exact nomatch h
        | obj l =>
          dsimp only
          simp only [HasName, ← lookup_named]
          cases h4 : l.lookup "name" with
          | none => simp
          | some v =>
            cases v with
            | obj l' => simp
            | other => simp
            | str t =>
              by_cases ht : t = "handshake-success"
              · subst ht; simp [eq_comm]
              · refine ⟨fun rest => ?_, ?_, ?_, ?_, ?_⟩ <;> split <;> simp_all

theorem wrap_iff (secure noCert : Bool) (store : Option String) (loads : String → Bool) (cert : Option Cert)
    (ctx : Option Ctx) (h : context secure noCert store loads = some ctx) :
    (secure = false ↔ ctx = none) ∧
    ∀ c, ctx = some c → (wrap c cert = true ↔ Accepted secure noCert store cert) := by
  unfold context at h
  cases secure with
  | false =>
    simp only [Bool.false_eq_true, if_false, Option.some.injEq] at h
    subst h
    exact ⟨⟨fun _ => rfl, fun _ => rfl⟩, nofun⟩
  | true =>
    rw [if_pos rfl] at h
    have key : ∀ st : Option String, store = st → (wrap (if (!noCert) = true then { verify := true, hostname := true, store := st }
        else { verify := false, hostname := false, store := st }) cert = true ↔ Accepted true noCert store cert) := by
      rintro st rfl
      cases noCert with
      | true =>
        cases cert with
        | none =>
          refine ⟨nofun, fun h => ?_⟩
          cases h with
          | clear h => exact nomatch h
          | unchecked _ _ h => exact nomatch h
          | checked _ h => exact nomatch h
        | some c => exact ⟨fun _ => .unchecked rfl rfl rfl, fun _ => rfl⟩
      | false =>
        cases cert with
        | none =>
          refine ⟨nofun, fun h => ?_⟩
          cases h with
          | clear h => exact nomatch h
          | unchecked _ _ h => exact nomatch h
          | checked _ h => exact nomatch h
        | some c =>
          have : wrap (if (!false) = true then { verify := true, hostname := true, store := store }
              else { verify := false, hostname := false, store := store }) (some c) = (c.trusted store && c.named) := by
            simp [wrap]
          rw [this, Bool.and_eq_true]
          constructor
          · rintro ⟨h1, h2⟩; exact .checked rfl rfl h1 h2
          · intro h
            cases h with
            | clear h => exact nomatch h
            | unchecked _ h => exact nomatch h
            | checked _ hc h1 h2 => cases hc; exact ⟨h1, h2⟩
    cases store with
    | none =>
      dsimp only at h
      cases h
      refine ⟨⟨nofun, nofun⟩, ?_⟩
      intro c hc
      cases hc
      have := key none rfl
      cases noCert <;> simpa using this
    | some f =>
      dsimp only at h
      split at h
      · cases h
        refine ⟨⟨nofun, nofun⟩, ?_⟩
        intro c hc
        cases hc
        have := key (some f) rfl
        cases noCert <;> simpa using this
      · exact nomatch h

/-- All the ways `connect` goes, told apart by where it ends. -/
theorem connect_cases (C : Codec Json) (ctx : Option Ctx) (id key : String) (w : World) :
    (∃ e, w.problems = .error e ∧ connect C ctx id key w = ([], .raised e)) ∨
    (∃ ps e, w.problems = .ok ps ∧ w.versions = .error e ∧ connect C ctx id key w = ([], .raised e)) ∨
    ∃ ps vs, w.problems = .ok ps ∧ w.versions = .ok vs ∧
      (((dial w.dials).2 = none ∧ connect C ctx id key w = ((dial w.dials).1, .waiting)) ∨
      (Unreached w.dials ∧ connect C ctx id key w = ((dial w.dials).1, .raised .os)) ∨
      (Reached w.dials ∧ (∃ c, ctx = some c ∧ wrap c w.cert = false) ∧ connect C ctx id key w = ((dial w.dials).1, .raised .os)) ∨
      (Reached w.dials ∧ (∀ c, ctx = some c → wrap c w.cert = true) ∧ w.sends = false ∧
        connect C ctx id key w = ((dial w.dials).1 ++ (if ctx = none then [] else [.tls]), .exit)) ∨
      (Reached w.dials ∧ (∀ c, ctx = some c → wrap c w.cert = true) ∧ w.sends = true ∧
        connect C ctx id key w =
          ((dial w.dials).1 ++ ((if ctx = none then [] else [.tls]) ++ [.hello (ctx ≠ none) ps vs id key]), answer C w.bytes))) := by
  unfold connect
  cases hp : w.problems with
  | error e => exact .inl ⟨e, rfl, rfl⟩
  | ok ps =>
    cases hv : w.versions with
    | error e => exact .inr (.inl ⟨ps, e, rfl, rfl, rfl⟩)
    | ok vs =>
      refine .inr (.inr ⟨ps, vs, rfl, rfl, ?_⟩)
      have h1 := dial_ok w.dials
      have h2 := dial_fail w.dials
      have h3 := dial_err w.dials
      dsimp only
      rcases hd : dial w.dials with ⟨l, _ | e | ⟨⟩⟩
      · exact .inl ⟨rfl, rfl⟩
      · rw [hd] at h2 h3
        rw [h3 e rfl]
        exact .inr (.inl ⟨h2.1 ⟨_, rfl⟩, rfl⟩)
      · rw [hd] at h1
        have hr := h1.1 rfl
        refine .inr (.inr ?_)
        cases ctx with
        | none =>
          refine .inr ?_
          cases hs : w.sends with
          | false => exact .inl ⟨hr, nofun, rfl, by simp [handshake, hs]⟩
          | true => exact .inr ⟨hr, nofun, rfl, by simp [handshake, hs]⟩
        | some c =>
          cases hw : wrap c w.cert with
          | false => exact .inl ⟨hr, ⟨c, rfl, hw⟩, by simp [hw]⟩
          | true =>
            refine .inr ?_
            have hc : ∀ c', some c = some c' → wrap c' w.cert = true := by rintro _ ⟨⟩; exact hw
            cases hs : w.sends with
            | false => exact .inl ⟨hr, hc, rfl, by simp [handshake, hs, hw]⟩
            | true => exact .inr ⟨hr, hc, rfl, by simp [handshake, hs, hw]⟩

theorem not_both {l : List Dial} (h : Reached l) (h' : Unreached l) : False := by
  have h1 := (dial_ok l).2 h
  obtain ⟨e, h2⟩ := (dial_fail l).2 h'
  rw [h1] at h2
  exact nomatch h2

theorem accepted_iff {secure noCert : Bool} {store : Option String} {loads : String → Bool} {ctx : Option Ctx}
    (hctx : context secure noCert store loads = some ctx) (cert : Option Cert) :
    (∀ c, ctx = some c → wrap c cert = true) ↔ Accepted secure noCert store cert := by
  obtain ⟨h1, h2⟩ := wrap_iff secure noCert store loads cert ctx hctx
  cases hc : ctx with
  | none => exact ⟨fun _ => .clear (h1.2 hc), fun _ => nofun⟩
  | some c =>
    rw [← h2 c hc]
    exact ⟨fun h => h c rfl, fun h c' hc' => by cases hc'; exact h⟩

end Connect

open Connect

/-- C77.  The judge is online exactly if the problems and versions could be found, the site was reached, accepted, and took the
handshake, and its first packet is a `handshake-success`; what it sends after that packet is left to be read. -/
theorem C77_online (C : Codec Json) (secure noCert : Bool) (store : Option String) (loads : String → Bool) (ctx : Option Ctx)
    (hctx : context secure noCert store loads = some ctx) (id key : String) (w : World) (rest : Bytes) :
    (connect C ctx id key w).2 = .online rest ↔
      (∃ ps, w.problems = .ok ps) ∧ (∃ vs, w.versions = .ok vs) ∧ Reached w.dials ∧ Accepted secure noCert store w.cert ∧
      w.sends = true ∧ ∃ j, First C w.bytes j rest ∧ Named j (.str "handshake-success") := by
  rw [← (answer_cases C w.bytes).1 rest, ← accepted_iff hctx]
  rcases connect_cases C ctx id key w with ⟨e, hp, hc⟩ | ⟨ps, e, hp, hv, hc⟩ | ⟨ps, vs, hp, hv, h⟩
  · rw [hc, hp]; simp
  · rw [hc, hp, hv]; simp
  · rcases h with ⟨hd, hc⟩ | ⟨hd, hc⟩ | ⟨hd, ⟨c, h1, h2⟩, hc⟩ | ⟨hd, hw, hs, hc⟩ | ⟨hd, hw, hs, hc⟩
    · rw [hc]
      refine ⟨nofun, ?_⟩
      rintro ⟨-, -, hr, -⟩
      rw [(dial_ok _).2 hr] at hd; exact nomatch hd
    · rw [hc]
      refine ⟨nofun, ?_⟩
      rintro ⟨-, -, hr, -⟩
      exact (not_both hr hd).elim
    · rw [hc]
      refine ⟨nofun, ?_⟩
      rintro ⟨-, -, -, h, -⟩
      rw [h c h1] at h2; exact nomatch h2
    · rw [hc, hs]
      exact ⟨nofun, fun ⟨_, _, _, _, h, _⟩ => nomatch h⟩
    · rw [hc]
      exact ⟨fun h => ⟨⟨_, hp⟩, ⟨_, hv⟩, hd, hw, hs, h⟩, fun h => h.2.2.2.2.2⟩

/-- C77.  The key is sent at most once in an attempt, as the last thing, with the problems and versions of that moment, and only to a
site that was reached and accepted; with TLS it is sent through it. -/
theorem C77_secret (C : Codec Json) (secure noCert : Bool) (store : Option String) (loads : String → Bool) (ctx : Option Ctx)
    (hctx : context secure noCert store loads = some ctx) (id key : String) (w : World) (enc : Bool) (ps : List (String × Nat))
    (vs : List (String × String)) (id' key' : String) (h : .hello enc ps vs id' key' ∈ (connect C ctx id key w).1) :
    enc = secure ∧ w.problems = .ok ps ∧ w.versions = .ok vs ∧ id' = id ∧ key' = key ∧ Reached w.dials ∧
    Accepted secure noCert store w.cert ∧
    ∃ n, (connect C ctx id key w).1 = List.replicate n .dial ++ (if secure then [.tls] else []) ++ [.hello enc ps vs id key] := by
  have hdial : ∀ x, x ∈ (dial w.dials).1 → ∀ a b c d e, x ≠ .hello a b c d e := by
    intro x hx a b c d e he
    rw [dial_events _ x hx] at he
    exact nomatch he
  have hsec := (wrap_iff secure noCert store loads w.cert ctx hctx).1
  rcases connect_cases C ctx id key w with ⟨e, hp, hc⟩ | ⟨ps, e, hp, hv, hc⟩ | ⟨ps', vs', hp, hv, h'⟩
  · rw [hc] at h; exact nomatch h
  · rw [hc] at h; exact nomatch h
  · rcases h' with ⟨hd, hc⟩ | ⟨hd, hc⟩ | ⟨hd, ⟨c, h1, h2⟩, hc⟩ | ⟨hd, hw, hs, hc⟩ | ⟨hd, hw, hs, hc⟩
    · rw [hc] at h; exact absurd rfl (hdial _ h _ _ _ _ _)
    · rw [hc] at h; exact absurd rfl (hdial _ h _ _ _ _ _)
    · rw [hc] at h; exact absurd rfl (hdial _ h _ _ _ _ _)
    · rw [hc] at h
      rcases List.mem_append.1 h with h | h
      · exact absurd rfl (hdial _ h _ _ _ _ _)
      · split at h
        · exact nomatch h
        · simp at h
    · rw [hc] at h ⊢
      have hx : Ev.hello enc ps vs id' key' = .hello (ctx ≠ none) ps' vs' id key := by
        rcases List.mem_append.1 h with h | h
        · exact absurd rfl (hdial _ h _ _ _ _ _)
        · rcases List.mem_append.1 h with h | h
          · split at h
            · exact nomatch h
            · simp at h
          · exact List.mem_singleton.1 h
      obtain ⟨rfl, rfl, rfl, rfl, rfl⟩ := by simpa using hx
      have hse : decide (ctx ≠ none) = secure := by
        cases secure with
        | false => rw [hsec.1 rfl]; rfl
        | true =>
          have : ctx ≠ none := fun h => nomatch hsec.2 h
          simpa using this
      refine ⟨by simpa using hse, hp, hv, rfl, rfl, hd, (accepted_iff hctx _).1 hw, (dial w.dials).1.length, ?_⟩
      have e1 : (dial w.dials).1 = List.replicate (dial w.dials).1.length .dial := List.eq_replicate_of_mem (dial_events _)
      have e2 : (if ctx = none then [] else [Ev.tls]) = if secure = true then [Ev.tls] else [] := by
        cases secure with
        | false => rw [hsec.1 rfl]; rfl
        | true =>
          have : ctx ≠ none := fun h => nomatch hsec.2 h
          rw [if_neg this, if_pos rfl]
      rw [e2, ← List.append_assoc, ← e1]
      simp

/-- C77.  Within an attempt the site is called again exactly as long as the calls are interrupted, after a success or failure no more. -/
theorem C77_dials (C : Codec Json) (ctx : Option Ctx) (id key : String) (w : World) (ps : List (String × Nat)) (vs : List (String × String))
    (hp : w.problems = .ok ps) (hv : w.versions = .ok vs) (n : Nat) (d : Dial) (rest : List Dial) (hd : d ≠ .eintr)
    (hw : w.dials = List.replicate n .eintr ++ d :: rest) : (connect C ctx id key w).1.count .dial = n + 1 := by
  have hc := dial_count w.dials n d rest hd hw
  have hs : (dial w.dials).1.count .dial = n + 1 := by rw [hc]; simp
  rcases connect_cases C ctx id key w with ⟨e, hp', _⟩ | ⟨ps', e, _, hv', _⟩ | ⟨ps', vs', _, _, h⟩
  · rw [hp] at hp'; exact nomatch hp'
  · rw [hv] at hv'; exact nomatch hv'
  · rcases h with ⟨_, h⟩ | ⟨_, h⟩ | ⟨_, _, h⟩ | ⟨_, _, _, h⟩ | ⟨_, _, _, h⟩ <;> rw [h] <;> simp only [List.count_append, hs]
    · split <;> simp
    · split <;> simp

/-- C77.  An attempt ends the judge, in place of being repeated, exactly if finding the problems or the versions raises something other
than an `OSError`, the handshake cannot be sent, or the first packet is not an object with a name. -/
theorem C77_ends (C : Codec Json) (secure noCert : Bool) (store : Option String) (loads : String → Bool) (ctx : Option Ctx)
    (hctx : context secure noCert store loads = some ctx) (id key : String) (w : World) :
    ((connect C ctx id key w).2 = .exit ∨ (connect C ctx id key w).2 = .raised .other) ↔
      w.problems = .error .other ∨ (∃ ps, w.problems = .ok ps) ∧ (w.versions = .error .other ∨
        (∃ vs, w.versions = .ok vs) ∧ Reached w.dials ∧ Accepted secure noCert store w.cert ∧
          (w.sends = false ∨ ∃ j rest, First C w.bytes j rest ∧ ¬ HasName j)) := by
  obtain ⟨-, h2, h3, h4, h5⟩ := answer_cases C w.bytes
  rw [← h2, ← accepted_iff hctx]
  rcases connect_cases C ctx id key w with ⟨e, hp, hc⟩ | ⟨ps, e, hp, hv, hc⟩ | ⟨ps, vs, hp, hv, h⟩
  · rw [hc, hp]; cases e <;> simp
  · rw [hc, hp, hv]; cases e <;> simp
  · have hvs : ∃ vs, w.versions = .ok vs := ⟨_, hv⟩
    have hps : ∃ ps, w.problems = .ok ps := ⟨_, hp⟩
    have key : ∀ X : Prop, (w.problems = .error .other ∨ (∃ ps, w.problems = .ok ps) ∧ (w.versions = .error .other ∨
        (∃ vs, w.versions = .ok vs) ∧ X)) ↔ X := by
      intro X
      rw [hp, hv]
      simp
    rw [key]
    rcases h with ⟨hd, hc⟩ | ⟨hd, hc⟩ | ⟨hd, ⟨c, h1, h2⟩, hc⟩ | ⟨hd, hw, hs, hc⟩ | ⟨hd, hw, hs, hc⟩
    · rw [hc]
      refine ⟨by simp, ?_⟩
      rintro ⟨hr, -⟩
      rw [(dial_ok _).2 hr] at hd; exact nomatch hd
    · rw [hc]
      refine ⟨by simp, ?_⟩
      rintro ⟨hr, -⟩
      exact (not_both hr hd).elim
    · rw [hc]
      refine ⟨by simp, ?_⟩
      rintro ⟨-, h, -⟩
      rw [h c h1] at h2; exact nomatch h2
    · rw [hc]
      exact ⟨fun _ => ⟨hd, hw, .inl hs⟩, fun _ => .inl rfl⟩
    · rw [hc, hs]
      dsimp only
      constructor
      · rintro (h | h)
        · exact absurd h h4
        · exact ⟨hd, hw, .inr h⟩
      · rintro ⟨-, -, h | h⟩
        · exact nomatch h
        · exact .inr h

/-- C77.  Failed attempts are repeated with the sleeps of C22: if no attempt ends the judge or waits, the sleeps after a failed attempt
are those of `reconnect` for the outcomes of the next ones, and the judge is online, with the same next sleep, or gives up, when that is. -/
theorem C77_repeats (C : Codec Json) (ctx : Option Ctx) (id key : String) : ∀ (ws : List World) (f : Rat) (w : World),
    (∀ x ∈ w :: ws, (connect C ctx id key x).2 ≠ .exit ∧ (connect C ctx id key x).2 ≠ .raised .other ∧
      (connect C ctx id key x).2 ≠ .waiting) → (∀ rest, (connect C ctx id key w).2 ≠ .online rest) →
    let out := fun x => match (connect C ctx id key x).2 with
      | .online _ => true
      | _ => false
    (doReconnect C ctx id key f (w :: ws)).2.1 = sleepsOf (reconnect f (ws.map out)) ∧
    (∀ g, (∃ rest, (doReconnect C ctx id key f (w :: ws)).2.2 = .online rest g) ↔ ∃ l, reconnect f (ws.map out) = .connected g l) ∧
    ((doReconnect C ctx id key f (w :: ws)).2.2 = .gaveUp ↔ ∃ l, reconnect f (ws.map out) = .exited l)
  | ws, f, w, h, hw => by
    intro out
    have hstep : doReconnect C ctx id key f (w :: ws) =
        if f > 86400 then ((connect C ctx id key w).1, [], .gaveUp)
        else ((connect C ctx id key w).1 ++ (doReconnect C ctx id key (f * (3 / 2)) ws).1,
          f :: (doReconnect C ctx id key (f * (3 / 2)) ws).2.1, (doReconnect C ctx id key (f * (3 / 2)) ws).2.2) := by
      rw [doReconnect]
      have h0 := h w (.head _)
      rcases hc : connect C ctx id key w with ⟨l, o⟩
      rw [hc] at h0 hw
      cases o with
      | online r => exact absurd rfl (hw r)
      | auth => rfl
      | raised e => cases e with
        | os => rfl
        | other => exact absurd rfl h0.2.1
      | exit => exact absurd rfl h0.1
      | waiting => exact absurd rfl h0.2.2
    rw [hstep]
    by_cases hf : f > 86400
    · rw [if_pos hf]
      cases ws with
      | nil => simp [reconnect, hf, sleepsOf]
      | cons x xs => simp [reconnect, hf, sleepsOf]
    · rw [if_neg hf]
      cases ws with
      | nil => simp [reconnect, hf, sleepsOf, doReconnect]
      | cons x xs =>
        rw [List.map_cons, reconnect, if_neg hf]
        by_cases ho : ∃ rest, (connect C ctx id key x).2 = .online rest
        · obtain ⟨rest, ho⟩ := ho
          have : out x = true := by simp [out, ho]
          rw [if_pos this]
          rcases hc : connect C ctx id key x with ⟨l, o⟩
          rw [hc] at ho
          dsimp only at ho
          subst ho
          simp [doReconnect, hc, sleepsOf]
        · have : out x = false := by
            dsimp only [out]
            split
            · rename_i r h; exact absurd ⟨r, h⟩ ho
            · rfl
          rw [if_neg (by rw [this]; nofun)]
          have ih := C77_repeats C ctx id key xs (f * (3 / 2)) x (fun y hy => h y (.tail _ hy)) (fun r hr => ho ⟨r, hr⟩)
          obtain ⟨i1, i2, i3⟩ := ih
          change (doReconnect C ctx id key (f * (3 / 2)) (x :: xs)).2.1 = sleepsOf (reconnect (f * (3 / 2)) (xs.map out)) at i1
          change (∀ g, (∃ rest, _) ↔ ∃ l, reconnect (f * (3 / 2)) (xs.map out) = .connected g l) at i2
          change (_ ↔ ∃ l, reconnect (f * (3 / 2)) (xs.map out) = .exited l) at i3
          dsimp only
          simp only [i1, i2, i3]
          cases reconnect (f * (3 / 2)) (xs.map out) <;> simp [Reconn.slept, sleepsOf]

/-- C77.  An `OSError` while listing the problems (C67: one missing root is enough) is taken for a failure of the network: no
connection is made, and the judge sleeps in place of reporting the error. -/
theorem C77_listing_fails (C : Codec Json) (ctx : Option Ctx) (id key : String) (ws : List World)
    (h : ∀ w ∈ ws, w.problems = .error .os) (hl : 26 ≤ ws.length) :
    (doReconnect C ctx id key 4 ws).1 = [] ∧
    (doReconnect C ctx id key 4 ws).2 = ((List.range 25).map (fun k => 4 * (3 / 2 : Rat) ^ k), .gaveUp) := by
  have hc : ∀ w ∈ ws, connect C ctx id key w = ([], .raised .os) := fun w hw => by rw [connect, h w hw]
  have hev : ∀ (ws : List World) (f : Rat), (∀ w ∈ ws, connect C ctx id key w = ([], .raised .os)) →
      (doReconnect C ctx id key f ws).1 = [] := by
    intro ws
    induction ws with
    | nil => intro f _; rfl
    | cons w ws ih =>
      intro f h
      rw [doReconnect, h w (.head _)]
      dsimp only
      split
      · rfl
      · rw [ih _ fun x hx => h x (.tail _ hx)]; rfl
  refine ⟨hev ws 4 hc, ?_⟩
  cases ws with
  | nil => simp at hl
  | cons w ws =>
    obtain ⟨h1, h2, h3⟩ := C77_repeats C ctx id key ws 4 w (fun x hx => by rw [hc x hx]; exact ⟨nofun, nofun, nofun⟩)
      (fun r => by rw [hc w (.head _)]; nofun)
    have hout : ws.map (fun x => match (connect C ctx id key x).2 with
        | .online _ => true
        | _ => false) = List.replicate ws.length false := by
      rw [List.eq_replicate_iff]
      refine ⟨by simp, ?_⟩
      intro b hb
      obtain ⟨x, hx, rfl⟩ := List.mem_map.1 hb
      rw [hc x (.tail _ hx)]
    have hb := (C22_backoff (List.replicate ws.length false)).2.2.1 (by simp) (by simp at hl ⊢; omega)
    rw [hout] at h1 h3
    rw [hb] at h1 h3
    have h3 := h3.2 ⟨_, rfl⟩
    exact Prod.ext h1 h3

/-- C77.  An answer without a name ends the judge. -/
theorem C77_nameless_fails : ∃ (C : Codec Json) (w : World), w.problems = .ok [] ∧
    (connect C none "judge" "key" w).2 = .raised .other ∧ (doReconnect C none "judge" "key" 4 [w, w]).2.2 = .raised :=
  ⟨⟨fun _ => [], fun _ => some (.obj []), id, some⟩, ⟨.ok [], .ok [], [.ok], none, true, [0, 0, 0, 1, 7]⟩, rfl, rfl, rfl⟩

/-- C77.  Trusted certificates given without asking for TLS are ignored, even if they cannot be loaded: the key goes out in the clear,
to anyone who answers. -/
theorem C77_clear_fails (C : Codec Json) (noCert : Bool) (store : Option String) (loads : String → Bool) (id key : String) (w : World)
    (ps : List (String × Nat)) (vs : List (String × String)) (hp : w.problems = .ok ps) (hv : w.versions = .ok vs)
    (hd : Reached w.dials) (hs : w.sends = true) : ∃ ctx, context false noCert store loads = some ctx ∧
    .hello false ps vs id key ∈ (connect C ctx id key w).1 := by
  refine ⟨none, rfl, ?_⟩
  rcases connect_cases C none id key w with ⟨e, hp', hc⟩ | ⟨ps', e, hp', hv', hc⟩ | ⟨ps', vs', hp', hv', h⟩
  · rw [hp] at hp'; exact nomatch hp'
  · rw [hv] at hv'; exact nomatch hv'
  · rw [hp] at hp'; cases hp'
    rw [hv] at hv'; cases hv'
    rcases h with ⟨h, hc⟩ | ⟨h, hc⟩ | ⟨h, ⟨c, h1, h2⟩, hc⟩ | ⟨h, hw, h, hc⟩ | ⟨h, hw, h, hc⟩
    · rw [(dial_ok _).2 hd] at h; exact nomatch h
    · exact (not_both hd h).elim
    · exact nomatch h1
    · rw [hs] at h; exact nomatch h
    · rw [hc]; simp

/-! A site with a certificate, and a codec that leaves bytes as they are. -/

namespace ConnectEx

def codec : Codec Json where
  dumps _ := []
  loads b := if b = [1] then some (.obj [("x", .other), ("name", .str "handshake-success")]) else
    if b = [2] then some (.obj [("name", .str "other")]) else none
  compress b := b
  decompress b := some b

def world : World where
  problems := .ok [("p", 7)]
  versions := .ok [("PY3", "3.9")]
  dials := [.eintr, .ok]
  cert := some ⟨fun s => s = some "ca", true⟩
  sends := true
  bytes := [0, 0, 0, 1, 1, 9]

def checked : Option Ctx := some ⟨true, true, some "ca"⟩

example : context true false (some "ca") (fun _ => true) = some checked := rfl
example : connect codec checked "id" "key" world =
    ([.dial, .dial, .tls, .hello true [("p", 7)] [("PY3", "3.9")] "id" "key"], .online [9]) := by decide +kernel
example : (connect codec (some ⟨true, true, none⟩) "id" "key" world) = ([.dial, .dial], .raised .os) := by decide +kernel
example : (connect codec none "id" "key" { world with bytes := [0, 0, 0, 1, 2] }).2 = .auth := by decide +kernel
example : First codec world.bytes (.obj [("x", .other), ("name", .str "handshake-success")]) [9] :=
  .whole (hd := [0, 0, 0, 1]) (body := [1]) rfl rfl rfl
example : (doReconnect codec checked "id" "key" 4 [{ world with dials := [.fail] }, { world with cert := none }, world]).2 =
    ([4, 6], .online [9] 9) := by decide +kernel

end ConnectEx

end Verif.Props
