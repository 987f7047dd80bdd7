import Verif.Props.Score
import Verif.Props.Packets
import Verif.Spec.Wire

/-! # C98: from the bytes on the connection to the points the site adds up -/

namespace Verif.Props
open Verif Verif.Spec Worker Verif.Submission Score Score.Spec Judge Site Packets Verif.Request Verif.Request.Spec Verif.Wire Verif.Wire.Spec

namespace Wr

/-! ## Frames -/

private theorem bodies_short (b : Bytes) (h : b.length < 4) : bodies b = [] := by
  unfold bodies
  split
  · simp at h; omega
  · rfl

private theorem header {n : Nat} {h : Bytes} (e : Net.pack n = some h) : ∃ a b c d : UInt8, h = [a, b, c, d] ∧
    a.toNat * 2 ^ 24 + b.toNat * 2 ^ 16 + c.toNat * 2 ^ 8 + d.toNat = n := by
  unfold Net.pack at e
  split at e
  · rename_i hn
    injection e with e
    refine ⟨_, _, _, _, e.symm, ?_⟩
    simp only [UInt8.toNat_ofNat']
    omega
  · cases e

private theorem bodies_frame {raw f : Bytes} (h : Net.frame raw = some f) (rest : Bytes) : bodies (f ++ rest) = raw :: bodies rest := by
  unfold Net.frame at h
  obtain ⟨hd, e, rfl⟩ := Option.map_eq_some_iff.1 h
  obtain ⟨a, b, c, d, rfl, hn⟩ := header e
  rw [List.append_assoc]
  simp only [List.cons_append, List.nil_append]
  rw [bodies]
  simp only [hn]
  simp

private theorem bodies_part {raw f b : Bytes} (h : Net.frame raw = some f) (hb : b <+: f) (hl : b.length < f.length) : bodies b = [] := by
  unfold Net.frame at h
  obtain ⟨hd, e, rfl⟩ := Option.map_eq_some_iff.1 h
  obtain ⟨a, b', c, d, rfl, hn⟩ := header e
  rcases Nat.lt_or_ge b.length 4 with h4 | h4
  · exact bodies_short b h4
  · obtain ⟨z, hz⟩ := hb
    match b, h4 with
    | x1 :: x2 :: x3 :: x4 :: rest, _ =>
      simp only [List.cons_append, List.nil_append, List.cons.injEq] at hz
      obtain ⟨rfl, rfl, rfl, rfl, hz⟩ := hz
      rw [bodies]
      simp only [hn]
      simp only [List.length_cons, List.length_append, List.length_nil] at hl
      rw [if_neg (by omega)]

/-- Of any part of a stream of frames the complete frames are the first ones. -/
private theorem bodies_prefix : ∀ (raws fs : List Bytes) (b : Bytes), raws.map Net.frame = fs.map some → b <+: fs.flatten →
    bodies b <+: raws ∧ (b = fs.flatten → bodies b = raws)
  | [], [], b, _, hb => by
    have : b = [] := by simpa using hb
    subst this
    exact ⟨by rw [bodies_short [] (by simp)], fun _ => bodies_short [] (by simp)⟩
  | [], f :: fs, b, h, _ => by simp at h
  | r :: raws, [], b, h, _ => by simp at h
  | r :: raws, f :: fs, b, h, hb => by
    simp only [List.map_cons, List.cons.injEq] at h
    rw [List.flatten_cons] at hb
    rcases Nat.lt_or_ge b.length f.length with hl | hl
    · have hp : b <+: f := List.prefix_of_prefix_length_le hb (List.prefix_append _ _) (Nat.le_of_lt hl)
      rw [bodies_part h.1 hp hl]
      refine ⟨List.nil_prefix, fun e => ?_⟩
      exfalso
      have := congrArg List.length e
      simp at this
      omega
    · have hp : f <+: b := List.prefix_of_prefix_length_le (List.prefix_append _ _) hb hl
      obtain ⟨z, rfl⟩ := hp
      have hz : z <+: fs.flatten := (List.prefix_append_right_inj f).1 hb
      obtain ⟨i1, i2⟩ := bodies_prefix raws fs z h.2 hz
      rw [bodies_frame h.1]
      refine ⟨(List.cons_prefix_cons).2 ⟨rfl, i1⟩, fun e => ?_⟩
      rw [List.flatten_cons] at e
      rw [i2 (List.append_cancel_left e)]

private theorem last_entered (as : List Net.WAct) (w₀ w : Net.Wire)
    (h0 : ∀ t raw b, w₀.lock = some (t, raw, b) → w₀.entered.getLast? = some (t, raw)) (h : Net.Wire.run w₀ as = some w) :
    ∀ t raw b, w.lock = some (t, raw, b) → w.entered.getLast? = some (t, raw) := by
  induction as generalizing w₀ with
  | nil => simp only [Net.Wire.run, Option.some.injEq] at h; subst h; exact h0
  | cons a as ih =>
    simp only [Net.Wire.run, Option.bind_eq_some_iff] at h
    obtain ⟨w₁, hs, h⟩ := h
    refine ih w₁ ?_ h
    cases a with
    | enter t raw =>
      simp only [Net.Wire.step] at hs
      split at hs
      · injection hs with hs; subst hs
        intro t' raw' b' e
        simp only [Option.some.injEq, Prod.mk.injEq] at e
        obtain ⟨rfl, rfl, rfl⟩ := e
        simp
      · cases hs
    | write =>
      simp only [Net.Wire.step] at hs
      split at hs
      · cases hs
      · rename_i t raw hl
        obtain ⟨hd, _, rfl⟩ := Option.map_eq_some_iff.1 hs
        intro t' raw' b' e
        simp only [Option.some.injEq, Prod.mk.injEq] at e
        obtain ⟨rfl, rfl, rfl⟩ := e
        exact h0 _ _ _ hl
      · injection hs with hs; subst hs
        intro t' raw' b' e
        cases e

/-- What was written is a part of the frames of the packets, in the order in which their senders came. -/
private theorem wire_frames (as : List Net.WAct) (w : Net.Wire) (h : Net.Wire.run ⟨[], none, []⟩ as = some w) (b : Bytes) (hb : b <+: w.bytes) :
    bodies b <+: w.entered.map Prod.snd ∧ (w.lock = none → b = w.bytes → bodies b = w.entered.map Prod.snd) := by
  obtain ⟨⟨fs, part, h1, h2, h3⟩, _⟩ := C23_interleaving as w h
  have hl := last_entered as _ w (by simp) h
  have hm : ∀ l : List (Nat × Bytes), l.map (fun e => Net.frame e.2) = (l.map Prod.snd).map Net.frame := by intro l; simp
  rw [hm] at h1
  unfold written at h1
  unfold partialFrame at h2
  cases hk : w.lock with
  | none =>
    simp only [hk] at h1 h2
    injection h2 with h2; subst h2
    rw [List.append_nil] at h3
    rw [h3] at hb
    obtain ⟨i1, i2⟩ := bodies_prefix _ _ b h1 hb
    exact ⟨i1, fun _ e => i2 (by rw [e, h3])⟩
  | some x =>
    obtain ⟨t, raw, flag⟩ := x
    refine ⟨?_, fun e => by cases e⟩
    have hlast := hl t raw flag hk
    have hdrop : w.entered.dropLast ++ [(t, raw)] = w.entered := List.dropLast_append_getLast? _ hlast
    simp only [hk] at h1 h2
    cases flag with
    | false =>
      injection h2 with h2; subst h2
      rw [List.append_nil] at h3
      rw [h3] at hb
      refine (bodies_prefix _ _ b h1 hb).1.trans ?_
      rw [← hdrop]
      simp
    | true =>
      have hf : Net.frame raw = some (part ++ raw) := by
        simp only at h2
        simp [Net.frame, h2]
      refine (bodies_prefix (w.entered.map Prod.snd) (fs ++ [part ++ raw]) b ?_ ?_).1
      · rw [← hdrop, List.map_append, List.map_append, h1]
        simp [hf]
      · rw [h3] at hb
        refine hb.trans ?_
        simp only [List.flatten_append, List.flatten_cons, List.flatten_nil, List.append_nil, ← List.append_assoc]
        exact List.prefix_append _ _

/-! ## Packets -/

private theorem has_unique {v : Json} {k : String} {x y : Json} (hx : Has v k x) (hy : Has v k y) : x = y := by
  obtain ⟨a, b, rfl, h1⟩ := hx
  obtain ⟨c, d, e, h2⟩ := hy
  injection e with e
  rcases List.append_eq_append_iff.1 e with ⟨z, rfl, hz⟩ | ⟨z, rfl, hz⟩
  · cases z with
    | nil => simp at hz; exact hz.1
    | cons u z =>
      simp only [List.cons_append, List.cons.injEq] at hz
      exact absurd (by rw [hz.2]; simp) (h1 y)
  · cases z with
    | nil => simp at hz; exact hz.1.symm
    | cons u z =>
      simp only [List.cons_append, List.cons.injEq] at hz
      exact absurd (by rw [hz.2]; simp) (h2 x)

private theorem kind_inj {k k' : Kind} (h : kindName k = kindName k') : k = k' := by
  cases k <;> cases k' <;> first | rfl | (exfalso; revert h; decide)

private theorem kind_status (k : Kind) : kindName k ≠ "test-case-status" := by cases k <;> decide

private theorem named_unique {v : Json} {m n : String} (h : Named v m) (h' : Named v n) : m = n := by
  have := has_unique h h'
  injection this with this
  exact String.toList_inj.1 this

private theorem forall₂_unique {α β : Type} {R : α → β → Prop} (hR : ∀ a b c, R a b → R a c → b = c) :
    ∀ {l : List α} {x y : List β}, List.Forall₂ R l x → List.Forall₂ R l y → x = y
  | [], _, _, .nil, .nil => rfl
  | _ :: _, _, _, .cons h hs, .cons h' hs' => by rw [hR _ _ _ h h', forall₂_unique hR hs hs']

private theorem tells_unique {v : Json} {x y : List Told} (hx : Wire.Spec.Tells v x) (hy : Wire.Spec.Tells v y) : x = y := by
  cases hx with
  | status sid js _ n1 i1 c1 f1 =>
    cases hy with
    | status sid' js' _ n2 i2 c2 f2 =>
      have e := has_unique i1 i2
      have e2 := has_unique c1 c2
      injection e with e
      injection e2 with e2
      have e := Int.ofNat_inj.1 e
      subst e e2
      refine forall₂_unique ?_ f1 f2
      rintro a b c ⟨x, p, h1, h2⟩ h
      cases h with
      | mk x' p' h1' h2' =>
        have e1 := has_unique h1 h1'
        injection e1 with e1
        rw [Int.ofNat_inj.1 e1, has_unique h2 h2']
    | packet k sid' n2 i2 => exact absurd (named_unique n2 n1) (kind_status k)
    | other n n2 h2 h3 => exact absurd (named_unique n2 n1) h2
  | packet k sid n1 i1 =>
    cases hy with
    | status sid' js' _ n2 i2 c2 f2 => exact absurd (named_unique n1 n2) (kind_status k)
    | packet k' sid' n2 i2 =>
      have e := has_unique i1 i2
      injection e with e
      rw [kind_inj (named_unique n1 n2), Int.ofNat_inj.1 e]
    | other n n2 h2 h3 => exact absurd (named_unique n2 n1) (h3 k)
  | other n n1 h1 h1' =>
    cases hy with
    | status sid' js' _ n2 i2 c2 f2 => exact absurd (named_unique n1 n2) h1
    | packet k sid' n2 i2 => exact absurd (named_unique n1 n2) (h1' k)
    | other n n2 h2 h3 => rfl

/-- What one event tells. -/
private def heard : Ev → List Site.Item
  | .enq _ => []
  | .status sid cs => cs.map (fun c => .result sid c.pos)
  | .say k sid _ => [.packet k sid]
  | .ack _ => []
  | .other => []

private theorem received_heard (h : List Ev) : received h = ((sent h).map heard).flatten := by
  induction h with
  | nil => rfl
  | cons e h ih =>
    have hs : sent (e :: h) = (match e with | .enq _ => [] | e => [e]) ++ sent h := by cases e <;> rfl
    rw [hs]
    cases e <;> simp [received, heard, ih]

/-- The numbers in a case. -/
private theorem cases_tell (sid : Nat) : ∀ (l : List Packets.Case) (cs : List Judge.Case) (js : List Json),
    l.map (·.position) = cs.map (fun c => (c.pos : Int)) → List.Forall₂ Packets.Spec.CaseSays l js →
    ∃ ts, List.Forall₂ (CaseTells sid) js ts ∧ ts.map Told.item = cs.map fun c => .result sid c.pos
  | [], [], _, _, .nil => ⟨[], .nil, rfl⟩
  | [], c :: cs, _, h, _ => by simp at h
  | x :: l, [], _, h, _ => by simp at h
  | x :: l, c :: cs, _, h, .cons (b := j) h1 hs => by
    simp only [List.map_cons, List.cons.injEq] at h
    obtain ⟨ts, i1, i2⟩ := cases_tell sid l cs _ h.2 hs
    obtain ⟨p, hp, _⟩ := h1.points
    have hpos := h1.position
    rw [h.1] at hpos
    exact ⟨.result sid c.pos p :: ts, .cons (.mk _ p c.pos hpos hp) i1, by simp [Told.item, i2]⟩

private theorem packet_tells {e : Ev} {p : Packet} {v : Json} (h : Sends e p) (hs : Packets.Spec.Says p v) :
    ∃ l, Wire.Spec.Tells v l ∧ l.map Told.item = heard e := by
  cases h with
  | status sid cs l h =>
    obtain ⟨h1, h2, js, h3, h4⟩ := hs
    obtain ⟨ts, i1, i2⟩ := cases_tell sid l cs js h h4
    exact ⟨ts, .status v sid js ts h1 h2 h3 i1, i2⟩
  | compileError sid g log => exact ⟨_, .packet v .compileError sid hs.1 hs.2.1, rfl⟩
  | compileMessage sid g log => exact ⟨_, .packet v .compileMessage sid hs.1 hs.2.1, rfl⟩
  | gradingBegin sid g p => exact ⟨_, .packet v .gradingBegin sid hs.1 hs.2.1, rfl⟩
  | gradingEnd sid g => exact ⟨_, .packet v .gradingEnd sid hs.1 hs.2, rfl⟩
  | gradingAborted sid g => exact ⟨_, .packet v .gradingAborted sid hs.1 hs.2, rfl⟩
  | batchBegin sid g => exact ⟨_, .packet v .batchBegin sid hs.1 hs.2, rfl⟩
  | batchEnd sid g => exact ⟨_, .packet v .batchEnd sid hs.1 hs.2, rfl⟩
  | internalError sid g m => exact ⟨_, .packet v .internalError sid hs.1 hs.2.1, rfl⟩
  | ack sid => exact ⟨_, .other v _ hs.1 (by decide) (by intro k; cases k <;> decide), rfl⟩
  | handshake => exact ⟨_, .other v _ hs.1 (by decide) (by intro k; cases k <;> decide), rfl⟩
  | supported => exact ⟨_, .other v _ hs.1 (by decide) (by intro k; cases k <;> decide), rfl⟩
  | current => exact ⟨_, .other v _ hs.1 (by decide) (by intro k; cases k <;> decide), rfl⟩
  | pong => exact ⟨_, .other v _ hs.1 (by decide) (by intro k; cases k <;> decide), rfl⟩

private theorem packets_tell (F : Floats) (hF : Packets.Spec.Good F) (compress : Bytes → Bytes) (decompress : Bytes → Option Bytes)
    (hz : ∀ b, decompress (compress b) = some b) : ∀ (es : List Ev) (ps : List Packet), List.Forall₂ Sends es ps →
    (∀ p ∈ ps, Packets.Spec.Real F p.json) →
    ∃ ls, List.Forall₂ (fun body l => ∃ t v, decompress body = some t ∧ decodeJson F t = some v ∧ Wire.Spec.Tells v l)
      (ps.map (raw F compress)) ls ∧ ls.map (fun l => l.map Told.item) = es.map heard
  | [], _, .nil, _ => ⟨[], .nil, rfl⟩
  | _ :: _, _, .cons (b := p) h hs, hp => by
    obtain ⟨ls, i1, i2⟩ := packets_tell F hF compress decompress hz _ _ hs fun q hq => hp q (by simp [hq])
    obtain ⟨v, hv, hsay⟩ := C94_says F hF p (hp p (by simp))
    obtain ⟨l, k1, k2⟩ := packet_tells h hsay
    exact ⟨l :: ls, .cons ⟨_, v, hz _, hv, k1⟩ i1, by simp [k2, i2]⟩

private theorem forall₂_prefix {α β : Type} {R : α → β → Prop} : ∀ {l : List α} {y : List β} {x : List α}, x <+: l → List.Forall₂ R l y →
    ∃ z, z <+: y ∧ List.Forall₂ R x z
  | _, _, [], _, _ => ⟨[], List.nil_prefix, .nil⟩
  | [], _, a :: x, h, _ => by simp at h
  | b :: l, _, a :: x, h, .cons (l₂ := y) h1 hs => by
    obtain ⟨e, h⟩ := List.cons_prefix_cons.1 h
    obtain ⟨z, hz, hf⟩ := forall₂_prefix h hs
    subst e
    exact ⟨_ :: z, List.cons_prefix_cons.2 ⟨rfl, hz⟩, .cons h1 hf⟩

end Wr

open Wr

/-- C98.  The bytes determine what the site is told. -/
theorem C98_one (F : Floats) (decompress : Bytes → Option Bytes) (b : Bytes) (x y : List Told) (hx : Hears F decompress b x)
    (hy : Hears F decompress b y) : x = y := by
  obtain ⟨l, h1, rfl⟩ := hx
  obtain ⟨m, h2, rfl⟩ := hy
  congr 1
  refine forall₂_unique ?_ h1 h2
  rintro body a c ⟨t, v, e1, e2, e3⟩ ⟨t', v', e1', e2', e3'⟩
  rw [e1] at e1'; injection e1' with e1'; subst e1'
  rw [e2] at e2'; injection e2' with e2'; subst e2'
  exact tells_unique e3 e3'

/-- C98.  Whichever threads send, and however much of what they wrote has arrived: the site can read it, and it is told the first of the
things that happened at the judge, in order; all of them once everything arrived and nobody is sending. -/
theorem C98_heard (F : Floats) (hF : Packets.Spec.Good F) (compress : Bytes → Bytes) (decompress : Bytes → Option Bytes)
    (hz : ∀ b, decompress (compress b) = some b) (hist : List Ev) (ps : List Packet) (hs : List.Forall₂ Sends (sent hist) ps)
    (hp : ∀ p ∈ ps, Packets.Spec.Real F p.json) (as : List Net.WAct) (w : Net.Wire) (hr : Net.Wire.run ⟨[], none, []⟩ as = some w)
    (he : w.entered.map Prod.snd <+: ps.map (raw F compress)) (b : Bytes) (hb : b <+: w.bytes) :
    ∃ ts, Hears F decompress b ts ∧ ts.map Told.item <+: received hist ∧
      (w.entered.length = ps.length → w.lock = none → b = w.bytes → ts.map Told.item = received hist) := by
  obtain ⟨k1, k2⟩ := wire_frames as w hr b hb
  obtain ⟨ls, i1, i2⟩ := packets_tell F hF compress decompress hz _ _ hs hp
  obtain ⟨zs, z1, z2⟩ := forall₂_prefix (k1.trans he) i1
  have hm : ∀ x : List (List Told), (x.flatten).map Told.item = (x.map fun l => l.map Told.item).flatten := by
    intro x; rw [List.map_flatten]
  refine ⟨zs.flatten, ⟨zs, z2, rfl⟩, ?_, ?_⟩
  · rw [hm, received_heard, ← i2]
    obtain ⟨u, rfl⟩ := z1
    rw [List.map_append, List.flatten_append]
    exact List.prefix_append _ _
  · intro hlen hl hw
    have e := k2 hl hw
    have e2 : w.entered.map Prod.snd = ps.map (raw F compress) := he.eq_of_length (by simp [hlen])
    rw [e, e2] at z2
    have : zs = ls := z1.eq_of_length (by rw [← z2.length_eq, ← i1.length_eq])
    rw [hm, received_heard, ← i2, this]

namespace Wr

/-- The first part of what comes in parts comes in parts. -/
private theorem split_prefix : ∀ (ys : List (List Site.Item)) (ts : List Told), ts.map Told.item <+: ys.flatten →
    ∃ zs : List (List Told), ts = zs.flatten ∧ zs.length = ys.length ∧
      ∀ (i : Nat) z, zs[i]? = some z → ∃ y, ys[i]? = some y ∧ z.map Told.item <+: y
  | [], ts, h => by
    have : ts = [] := by simpa using h
    exact ⟨[], by simp [this], rfl, by simp⟩
  | y :: ys, ts, h => by
    rw [List.flatten_cons] at h
    rcases Nat.lt_or_ge ts.length y.length with hl | hl
    · have h1 : ts.map Told.item <+: y := List.prefix_of_prefix_length_le h (List.prefix_append _ _) (by simp; omega)
      obtain ⟨zs, e1, e2, e3⟩ := split_prefix ys [] (by simp)
      refine ⟨ts :: zs, by simp [← e1], by simp [e2], ?_⟩
      intro i z hi
      cases i with
      | zero => simp at hi; subst hi; exact ⟨y, rfl, h1⟩
      | succ i => simpa using e3 i z (by simpa using hi)
    · have h1 : y <+: ts.map Told.item := List.prefix_of_prefix_length_le (List.prefix_append _ _) h (by simpa using hl)
      have e : (ts.take y.length).map Told.item = y := by
        rw [List.map_take]; exact List.prefix_iff_eq_take.1 h1 |>.symm
      have h2 : (ts.drop y.length).map Told.item <+: ys.flatten := by
        have h' : (ts.take y.length).map Told.item ++ (ts.drop y.length).map Told.item <+: y ++ ys.flatten := by
          rw [← List.map_append, List.take_append_drop]; exact h
        rw [e] at h'
        exact (List.prefix_append_right_inj y).1 h'
      obtain ⟨zs, e1, e2, e3⟩ := split_prefix ys _ h2
      refine ⟨ts.take y.length :: zs, by rw [List.flatten_cons, ← e1, List.take_append_drop], by simp [e2], ?_⟩
      intro i z hi
      cases i with
      | zero => simp at hi; subst hi; exact ⟨y, rfl, by rw [e]⟩
      | succ i => simpa using e3 i z (by simpa using hi)

private theorem adds (t : Task) : ∀ z : List Told, Honest t z → Adds z (score t.acts (z.map Told.item))
  | [], _ => .nil
  | .result sid n x :: z, h => by
    have ih := adds t z fun s m y hm => h s m y (by simp [hm])
    have h0 := h sid n x (by simp)
    exact .result sid n x _ _ z h0 ih
  | .packet k sid :: z, h => .packet k sid _ z (adds t z fun s m y hm => h s m y (by simp [hm]))

private theorem amount_unique {x : Json} {p q : Rat} (h : Amount x p) (h' : Amount x q) : p = q := by
  cases h <;> cases h' <;> rfl

private theorem adds_unique {z : List Told} {p q : Rat} (h : Adds z p) (h' : Adds z q) : p = q := by
  induction h generalizing q with
  | nil => cases h'; rfl
  | result sid pos x p0 q0 l ha _ ih =>
    cases h' with
    | result _ _ _ p1 q1 _ ha' hq => rw [amount_unique ha ha', ih hq]
  | packet k sid q0 l _ ih => cases h' with | packet _ _ _ _ hq => exact ih hq

private theorem partly_mono {sid : Nat} {r : WorkerRun} {x y : List Site.Item} (h : Partly sid r y) (hx : x <+: y) : Partly sid r x := by
  obtain ⟨p, hp, hy⟩ := h
  exact ⟨p, hp, hx.trans hy⟩

private theorem partly_about {sid : Nat} {r : WorkerRun} {y : List Site.Item} (h : Partly sid r y) : ∀ x ∈ y, about x = sid := by
  obtain ⟨p, _, hy⟩ := h
  intro x hx
  rcases List.mem_append.1 (hy.subset hx) with h | h
  · obtain ⟨m, _, hm⟩ := List.mem_flatMap.1 h
    cases m <;> simp only [tell, List.not_mem_nil, List.mem_singleton] at hm <;> first | exact hm.elim | (subst hm; rfl)
  · simp at h; subst h; rfl

end Wr

/-- C98.  So of any part of the connection's bytes: what the site is told comes in parts, one for each submission in the order in which it asked
for them; and where the numbers in the results of a submission that compiled are the points the worker produced, these add up to something
between nothing and what the problem is worth, to all of it only if every case is decided to be worth its full points, and to all of it if
this is so and the site has been told that the grading is over. -/
theorem C98_points (F : Floats) (hF : Packets.Spec.Good F) (compress : Bytes → Bytes) (decompress : Bytes → Option Bytes)
    (hz : ∀ b, decompress (compress b) = some b) (run : Nat → WorkerRun) (s : S) (h : Reachable (fun _ => false) SaidAll s) (hw : Keeps run s)
    (ps : List Packet) (hs : List.Forall₂ Sends (sent s.sh.hist) ps) (hp : ∀ p ∈ ps, Packets.Spec.Real F p.json) (as : List Net.WAct)
    (w : Net.Wire) (hr : Net.Wire.run ⟨[], none, []⟩ as = some w) (he : w.entered.map Prod.snd <+: ps.map (raw F compress)) (b : Bytes)
    (hb : b <+: w.bytes) :
    ∃ zs : List (List Told), Hears F decompress b zs.flatten ∧ zs.length ≤ (requested s.sh.hist).length ∧
      ∀ i z, zs[i]? = some z → ∃ sid, (requested s.sh.hist)[i]? = some sid ∧ (∀ x ∈ z, about x.item = sid) ∧
        ∀ t : Task, run i = t.work → Score.Spec.NoAward t → (∀ bn p, (bn, p) ∈ caseList 0 t.items → 0 < p) → Honest t z →
        ∃ q, (∀ q', Adds z q' ↔ q' = q) ∧ 0 ≤ q ∧ q ≤ worth t.items ∧ (q = worth t.items → Full t) ∧ (Full t → .packet .gradingEnd sid ∈ z → q = worth t.items) := by
  obtain ⟨ts, t1, t2, _⟩ := C98_heard F hF compress decompress hz _ ps hs hp as w hr he b hb
  obtain ⟨ys, y1, y2, y3⟩ := C96_now run s h hw
  rw [y1] at t2
  obtain ⟨zs, rfl, z2, z3⟩ := split_prefix ys ts t2
  refine ⟨zs, t1, by omega, ?_⟩
  intro i z hi
  obtain ⟨y, hy, hyz⟩ := z3 i z hi
  obtain ⟨sid, hsid, hpart⟩ := y3 i y hy
  have hpart := partly_mono hpart hyz
  refine ⟨sid, hsid, fun x hx => partly_about hpart _ (List.mem_map_of_mem hx), fun t ht hn hpos hon => ?_⟩
  rw [ht] at hpart
  have hb := C96_bounds sid t _ hpart hn fun bn p hm => le_of_lt (hpos bn p hm)
  refine ⟨score t.acts (z.map Told.item), ?_, hb.1, hb.2, C96_sound sid t _ hpart hn hpos, ?_⟩
  · intro q'
    exact ⟨fun hq => adds_unique hq (adds t z hon), fun e => e ▸ adds t z hon⟩
  · intro hf hm
    exact C96_complete sid t _ hpart hn hpos hf (List.mem_map_of_mem (f := Told.item) hm)

namespace Wr

/-- What is sent for the two submissions of `demo82`, the second of which ends in an internal error. -/
def demoPackets : List Packet :=
  [.acknowledged (.int 7), .begin (.int 7) false, .cases (.int 7) [⟨1, 0, .inl 0, .inl 5, .inl 5, 1024, ['é'], [], []⟩], .finish (.int 7),
   .acknowledged (.int 8), .internalError (.int 8) (.text ['"', '!'])]

/-- What the site is told of the first. -/
def demoTold : List Told := [.packet .gradingBegin 7, .result 7 1 (.int 5), .packet .gradingEnd 7]

/-- The senders one after the other, the last of which is interrupted after the header. -/
def demoActs : List Net.WAct :=
  (demoPackets.flatMap fun p => [.enter 0 (raw wholes id p), .write, .write]).dropLast

private theorem demo_real : ∀ p ∈ demoPackets, Packets.Spec.Real wholes p.json := by
  intro p hp
  simp only [demoPackets, List.mem_cons, List.not_mem_nil, or_false] at hp
  rcases hp with rfl | rfl | rfl | rfl | rfl | rfl <;> refine .obj _ ?_ <;> intro y hy <;>
    simp only [Packet.dict, plain, List.map_cons, List.map_nil, List.cons_append, List.nil_append, List.mem_cons, List.not_mem_nil, or_false] at hy
  · rcases hy with rfl | rfl; exacts [.str _, .int _]
  · rcases hy with rfl | rfl | rfl; exacts [.str _, .int _, .bool _]
  · rcases hy with rfl | rfl | rfl
    · exact .str _
    · exact .int _
    · refine .arr _ ?_
      intro v hv
      rw [List.mem_singleton] at hv; subst hv
      refine .obj _ ?_
      intro y hy
      simp only [List.mem_cons, List.not_mem_nil, or_false] at hy
      rcases hy with rfl | rfl | rfl | rfl | rfl | rfl | rfl | rfl | rfl
      exacts [.int _, .int _, .int _, .int _, .int _, .int _, .str _, .str _, .str _]
  · rcases hy with rfl | rfl; exacts [.str _, .int _]
  · rcases hy with rfl | rfl; exacts [.str _, .int _]
  · rcases hy with rfl | rfl | rfl; exacts [.str _, .int _, .str _]

private theorem demo_wire : ∃ w, Net.Wire.run ⟨[], none, []⟩ demoActs = some w ∧ w.entered.map Prod.snd = demoPackets.map (raw wholes id) ∧
    100 < w.bytes.length ∧ (bodies w.bytes).length = 5 := by
  have h : ((Net.Wire.run ⟨[], none, []⟩ demoActs).map fun w => (decide (w.entered.map Prod.snd = demoPackets.map (raw wholes id)),
      decide (100 < w.bytes.length), (bodies w.bytes).length)) = some (true, true, 5) := by decide +kernel
  obtain ⟨w, h1, h2⟩ := Option.map_eq_some_iff.1 h
  simp only [Prod.mk.injEq, decide_eq_true_eq] at h2
  exact ⟨w, h1, h2⟩

end Wr

/-- The hypotheses of `C98_points` are met by a judge that graded two submissions, with the last packet half sent. -/
example : ∃ s w, Reachable (fun _ => false) SaidAll s ∧ Keeps (fun _ => oneTask.work) s ∧ requested s.sh.hist = [7, 8] ∧
    Packets.Spec.Good wholes ∧ List.Forall₂ Sends (sent s.sh.hist) demoPackets ∧ (∀ p ∈ demoPackets, Packets.Spec.Real wholes p.json) ∧
    Net.Wire.run ⟨[], none, []⟩ demoActs = some w ∧ w.entered.map Prod.snd = demoPackets.map (raw wholes id) ∧
    100 < w.bytes.length ∧ (bodies w.bytes).length = 5 ∧ Honest oneTask demoTold ∧ Adds demoTold 5 ∧ worth oneTask.items = 5 := by
  obtain ⟨s, h1, h2, h3, h4, h5, h6, h7⟩ := demo82
  obtain ⟨w, w1, w2, w3, w4⟩ := demo_wire
  refine ⟨s, w, h1, ?_, h5, wholes_good, ?_, demo_real, w1, w2, w3, w4, ?_, ?_, by decide +kernel⟩
  · intro g hg
    have := h4 g hg
    rw [demoRun_msgs] at this
    rw [oneTask_msgs]
    exact this
  · rw [h7]
    exact .cons (.ack 7) (.cons (.gradingBegin 7 7 false) (.cons (.status 7 _ _ rfl) (.cons (.gradingEnd 7 7) (.cons (.ack 8)
      (.cons (.internalError 8 8 _) .nil)))))
  · intro sid n x hx
    simp [demoTold] at hx
    obtain ⟨rfl, rfl, rfl⟩ := hx
    have : pointsIn (resultsOf oneTask.acts) 1 = ((5 : Int) : Rat) := by decide +kernel
    rw [this]
    exact .int 5
  · have := Adds.result 7 1 (.int 5) ((5 : Int) : Rat) 0 [.packet .gradingEnd 7] (.int 5) (.packet _ _ _ _ .nil)
    have := Adds.packet .gradingBegin 7 _ _ this
    simpa [demoTold] using this

end Verif.Props
