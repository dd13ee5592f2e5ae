import Verif.Lemmas.ReadRun

/-!
# Decoder: laying open any encoding of a COSE_Sign1 message
-/

namespace TCose
open Spec

/-- What the decoder makes of an item, `n` levels deep: the value, and the
elements found behind the head. A tagged item is the item without its tags, with the tags
attached (one level is used up for this). -/
def ValIs (P : QParams) : Nat → Nat → Item → Itm → Cur → Cur → Prop
  | n + 1, d, .arr xs, it, c, cE => it.err = none ∧ it.tags = [] ∧ ∃ cnt, it.val = .arr cnt ∧
      ∀ room, d - 1 ≤ room → ∃ es, elements P false room cnt c = .ok (es, cE) ∧
        Each (fun x e => ∃ cE', ValIs P n (d - 1) x e.itm e.cur cE') xs es
  | n + 1, d, .map kvs, it, c, cE => it.err = none ∧ it.tags = [] ∧ ∃ cnt, it.val = .map cnt ∧
      ∀ room, d - 1 ≤ room → ∃ es, elements P true room cnt c = .ok (es, cE) ∧
        Each (fun kv e => ((∃ l, e.label = some l ∧ AtomIs kv.1.bare l ∧ kv.1.bare.isLabel = true) ∧
          ∃ cE', ValIs P n (d - 1) kv.2 e.itm e.cur cE') ∨
          (kv = (notItem, notItem) ∧ e.label = none)) kvs es
  | 0, _, .arr _, _, _, _ => True
  | 0, _, .map _, _, _, _ => True
  | n + 1, d, .tag t x, it, c, cE => ∃ it0, ValIs P n d (Item.tag t x).bare it0 c cE ∧
      it = tagContent P ⟨it0.val, ((Item.tag t x).tagList.take P.maxTags).reverse,
        it0.err.or (if P.maxTags < (Item.tag t x).tagList.length then some .tooManyTags else none)⟩
  | 0, _, .tag _ _, _, _, _ => True
  | _, _, x, it, _, _ => it.tags = [] ∧ AtomRead x it.val it.err

theorem ValIs_read {P : QParams} {n d : Nat} {x : Item} {it : Itm} {c cE : Cur}
    (hx : x.isAtom = true) : ValIs P n d x it c cE ↔ it.tags = [] ∧ AtomRead x it.val it.err := by
  cases n <;> cases x <;> first | (cases hx; done) | (rw [ValIs]) 
  all_goals simp

theorem ValIs_atom {P : QParams} {n d : Nat} {x : Item} {it : Itm} {c cE : Cur}
    (hx : x.isAtom = true) (hl : x.live) :
    ValIs P n d x it c cE ↔ it.err = none ∧ it.tags = [] ∧ AtomIs x it.val := by
  rw [ValIs_read hx]
  constructor
  · rintro ⟨h1, h2⟩
    exact ⟨(h2.of_live hl).1, h1, (h2.of_live hl).2⟩
  · rintro ⟨h1, h2, h3⟩
    exact ⟨h2, .inl ⟨hl, h1, h3⟩⟩

theorem tagContent_untagged (P : QParams) (v : Val) (e : Option QErr) :
    tagContent P ⟨v, [], e⟩ = ⟨v, [], e⟩ := by
  unfold tagContent
  rw [if_pos (by simp)]

theorem nextItem_val {P : QParams} {c c1 : Cur} {v : Val}
    (h : decodeAtom c = (.ok (.val v), c1)) : nextItem P c = (.ok ⟨v, [], none⟩, c1) := by
  unfold nextItem nextRaw
  rw [nextTagged_val (by omega) h]
  simp [tagContent_untagged]

/-- The elements of a container. -/
theorem slots_elements {α : Type} {P : QParams} {m : Bool} {d room : Nat} {Q : α → Entry → Prop}
    {r r' : Bytes} {k : Nat} (hroom : d ≤ room) {as : List α} {ss : List Bytes}
    {left : Option Nat} {pos : Nat} (hss : ∀ s ∈ ss, SlotRun P m d s)
    (hq : Each (fun a s => ∀ pos r, ∃ l it c1, entry P m ⟨pos, s ++ r⟩ = (.ok (l, it), c1) ∧
      Q a ⟨l, it, c1⟩) as ss)
    (hend : EndsBy left ss.length r r' k) :
    ∃ es, elements P m room left ⟨pos, ss.flatten ++ r⟩ =
        .ok (es, ⟨pos + ss.flatten.length + k, r'⟩) ∧ Each Q as es := by
  cases ss with
  | nil =>
    cases hq
    rcases hend with ⟨rfl, rfl, rfl⟩ | ⟨rfl, rfl, rfl⟩
    · exact ⟨[], rfl, .nil⟩
    · exact ⟨[], rfl, .nil⟩
  | cons s ss =>
    have hf := (hss s (by simp)).1
    obtain ⟨es, h1, h2⟩ := slots_traverse hroom as (s :: ss) left pos
      (((s :: ss).flatten ++ r).length + 1) (by simp) hss hq hend (Nat.lt_succ_self _)
    refine ⟨es, ?_, h2⟩
    unfold elements
    obtain ⟨x, s', rfl, hx⟩ := hf
    rcases hend with ⟨rfl, rfl, rfl⟩ | ⟨rfl, rfl, rfl⟩
    · exact h1
    · simp only
      rw [if_neg (by simpa using hx)]
      exact h1

theorem entry_arr {P : QParams} {c c1 : Cur} {it : Itm} (h : nextItem P c = (.ok it, c1))
    (hb : it.val ≠ .brk) : entry P false c = (.ok (none, it), c1) := by
  unfold entry
  rw [if_neg (by simp), h]
  simp only [if_neg hb]

theorem entry_map {P : QParams} {c c1 c2 : Cur} {v : Val} {it : Itm}
    {tags : List Nat} (hl : nextRaw P c = (.ok ⟨v, tags, none⟩, c1)) (hv : v.isLabel = true)
    (h : nextItem P c1 = (.ok it, c2))
    (hb : it.val ≠ .brk) : entry P true c = (.ok (some v, it), c2) := by
  unfold entry
  rw [if_pos rfl, hl]
  simp only [h, hv, if_true, if_neg hb, if_neg (Val.isLabel_ne_brk hv)]

theorem Spec.Item.tagged_bare : ∀ x : Item, tagged x.tagList x.bare = x
  | .tag n x => by
    have := Item.tagged_bare x
    simp only [Item.tagList, Item.bare, tagged, List.foldr_cons]
    rw [← tagged, this]
  | .uint _ | .nint _ | .bstr _ | .tstr _ | .arr _ | .map _ | .null | .simple _ | .float _ => rfl

theorem Spec.Item.bare_isTag : ∀ x : Item, ∀ n y, x.bare ≠ .tag n y
  | .tag n x => by
    have := Item.bare_isTag x
    simpa only [Item.bare] using this
  | .uint _ | .nint _ | .bstr _ | .tstr _ | .arr _ | .map _ | .null | .simple _ | .float _ => by
    simp [Item.bare]

theorem Spec.Item.bare_fits {d : Nat} : ∀ x : Item, x.fits d = true → x.bare.fits d = true
  | .tag n x => fun h => by
    have := Item.bare_fits x h
    simpa only [Item.bare] using this
  | .uint _ | .nint _ | .bstr _ | .tstr _ | .arr _ | .map _ | .null | .simple _ | .float _ => id

/-- An item without tags is fetched in one step. -/
theorem fetch_bare {P : QParams} {t d : Nat} {x : Item} {b : Bytes} (h : Reads t d x b)
    (hx : ∀ n y, x ≠ .tag n y) (pos : Nat) (r : Bytes) :
    ∃ v err c1, FetchAs P b v err pos r c1 := by
  cases ha : x.isAtom with
  | true =>
    obtain ⟨v, err, -, h1⟩ := reads_atom (P := P) h ha pos r
    exact ⟨v, err, _, h1⟩
  | false =>
    cases h with
    | @arr _ xs h bss hn hh hall =>
      exact ⟨_, none, _, .of_val (by rw [List.append_assoc]; exact decodeAtom_arr hh hn pos _)⟩
    | arr0 hh => exact ⟨_, none, _, .of_val (decodeAtom_arr hh (by omega) pos _)⟩
    | @arrIndef _ xs bss hall => exact ⟨_, none, _, .of_val (decodeAtom_arrIndef pos _)⟩
    | @map _ kvs h bss hn hh hall =>
      exact ⟨_, none, _, .of_val (by rw [List.append_assoc]; exact decodeAtom_map hh hn pos _)⟩
    | map0 hh => exact ⟨_, none, _, .of_val (decodeAtom_map hh (by omega) pos _)⟩
    | @mapIndef _ kvs bss hall => exact ⟨_, none, _, .of_val (decodeAtom_mapIndef pos _)⟩
    | @tag _ t x h b hh hx' => exact absurd rfl (hx t x)
    | _ => cases ha

theorem FetchAs.nextItem {P : QParams} {b : Bytes} {v : Val} {err : Option QErr} {pos : Nat}
    {r : Bytes} {c1 : Cur} (h : FetchAs P b v err pos r c1) :
    nextItem P ⟨pos, b ++ r⟩ = (.ok ⟨v, [], err⟩, c1) := by
  unfold TCose.nextItem nextRaw
  rw [h _ _ _ (by omega)]
  cases err <;> simp [tagContent_untagged]

theorem tagContent_brk {P : QParams} {it : Itm} (h : it.val ≠ .brk) : (tagContent P it).val ≠ .brk := by
  unfold tagContent
  repeat' split
  all_goals first | exact h | simp

/-- The item that the decoder makes of what it reads. -/
theorem reads_item (P : QParams) : ∀ (n : Nat) {d : Nat} {x : Item} {b : Bytes},
    Reads P.maxTags d x b → ∀ pos r, ∃ it c1, nextItem P ⟨pos, b ++ r⟩ = (.ok it, c1) ∧
      it.val ≠ .brk ∧ ValIs P n d x it c1 ⟨pos + b.length, r⟩ := by
  intro n
  induction n with
  | zero =>
    intro d x b h pos r
    cases hx : x.isAtom with
    | true =>
      obtain ⟨v, err, h1, h2⟩ := reads_atom (P := P) h hx pos r
      refine ⟨_, _, h2.nextItem, (h1.flat 0 [] ⟨0, []⟩).1, ?_⟩
      rw [ValIs_read hx]
      exact ⟨rfl, h1⟩
    | false =>
      obtain ⟨-, hr⟩ := reads_run P h
      obtain ⟨it, c1, h1, h2, h3⟩ := hr d [] pos r (by simp) ((b ++ r).length + 1) [] false (by simp; omega)
      obtain ⟨h4, -⟩ := tagContent_run h2 h3
      refine ⟨tagContent P it, c1, by unfold nextItem nextRaw; simp only [h1], h4, ?_⟩
      cases x <;> first | (cases hx; done) | trivial
  | succ n ih =>
    intro d x b h pos r
    have elems : ∀ {d : Nat} {xs : List Item} {bss : List Bytes}, ReadsAll P.maxTags d xs bss →
        Each (fun x s => ∀ pos r, ∃ l it c1, entry P false ⟨pos, s ++ r⟩ = (.ok (l, it), c1) ∧
          ∃ cE, ValIs P n d x it c1 cE) xs bss := by
      intro d xs
      induction xs with
      | nil => intro bss h; cases h; exact .nil
      | cons x xs ihx =>
        intro bss h
        cases h with
        | cons h1 h2 =>
          refine .cons (fun pos r => ?_) (ihx h2)
          obtain ⟨it, c1, h3, h4, h5⟩ := ih h1 pos r
          exact ⟨none, it, c1, entry_arr h3 h4, _, h5⟩
    have pairs : ∀ {d : Nat} {kvs : List (Item × Item)} {bss : List Bytes},
        ReadsPairs P.maxTags d kvs bss →
        Each (fun kv s => ∀ pos r, ∃ l it c1, entry P true ⟨pos, s ++ r⟩ = (.ok (l, it), c1) ∧
          (((∃ l', l = some l' ∧ AtomIs kv.1.bare l' ∧ kv.1.bare.isLabel = true) ∧
            ∃ cE, ValIs P n d kv.2 it c1 cE) ∨ (kv = (notItem, notItem) ∧ l = none))) kvs bss := by
      intro d kvs
      induction kvs with
      | nil => intro bss h; cases h; exact .nil
      | cons kv kvs ihx =>
        intro bss h
        cases h with
        | @cons _ k v _ a b bss h0 h1 h2 h3 =>
          refine .cons (fun pos r => ?_) (ihx h3)
          obtain ⟨v, ts, h4, h5, h5', h6⟩ := key_raw (P := P) h1 h0 pos (b ++ r)
          obtain ⟨it, c1, h7, h8, h9⟩ := ih h2 (pos + a.length) r
          rw [List.append_assoc]
          exact ⟨some v, it, c1, entry_map h4 h6 h7 h8, .inl ⟨⟨v, rfl, h5, h5'⟩, _, h9⟩⟩
        | lone h1 h2 =>
          refine .cons (fun pos r => ?_) (ihx h2)
          obtain ⟨e, he⟩ := (lone_entry h1).2 pos r
          exact ⟨none, _, _, he, .inr ⟨rfl, rfl⟩⟩
    cases hx : x.isAtom with
    | true =>
      obtain ⟨v, err, h1, h2⟩ := reads_atom (P := P) h hx pos r
      refine ⟨_, _, h2.nextItem, (h1.flat 0 [] ⟨0, []⟩).1, ?_⟩
      rw [ValIs_read hx]
      exact ⟨rfl, h1⟩
    | false =>
      cases h with
      | arr0 hh =>
        refine ⟨_, _, nextItem_val (decodeAtom_arr hh (by omega) pos r), by simp,
          rfl, rfl, _, rfl, fun room hroom => ⟨[], rfl, .nil⟩⟩
      | map0 hh =>
        refine ⟨_, _, nextItem_val (decodeAtom_map hh (by omega) pos r), by simp,
          rfl, rfl, _, rfl, fun room hroom => ⟨[], rfl, .nil⟩⟩
      | @arr d xs h bss hn hh hall =>
        rw [List.append_assoc]
        refine ⟨_, _, nextItem_val (decodeAtom_arr hh hn pos (bss.flatten ++ r)), by simp,
          rfl, rfl, _, rfl, fun room hroom => ?_⟩
        obtain ⟨es, h1, h2⟩ := slots_elements (P := P) (m := false)
          (Q := fun x e => ∃ cE, ValIs P n d x e.itm e.cur cE) (r := r) (r' := r) (k := 0)
          (left := some xs.length) (pos := pos + h.length) hroom (readsAll_run P hall)
          (elems hall) (.inl ⟨by rw [hall.length], rfl, rfl⟩)
        refine ⟨es, ?_, h2⟩
        rw [h1, List.length_append, ← Nat.add_assoc]
        rfl
      | @arrIndef d xs bss hall =>
        rw [List.cons_append, List.append_assoc]
        refine ⟨_, _, nextItem_val (decodeAtom_arrIndef pos (bss.flatten ++ ([0xff] ++ r))), by simp,
          rfl, rfl, _, rfl, fun room hroom => ?_⟩
        obtain ⟨es, h1, h2⟩ := slots_elements (P := P) (m := false)
          (Q := fun x e => ∃ cE, ValIs P n d x e.itm e.cur cE) (r := [0xff] ++ r) (r' := r) (k := 1)
          (left := none) (pos := pos + 1) hroom (readsAll_run P hall)
          (elems hall) (.inr ⟨rfl, rfl, rfl⟩)
        refine ⟨es, ?_, h2⟩
        rw [h1]
        simp only [List.length_cons, List.length_append, List.length_nil]
        congr 3
        omega
      | @map d kvs h bss hn hh hall =>
        rw [List.append_assoc]
        refine ⟨_, _, nextItem_val (decodeAtom_map hh hn pos (bss.flatten ++ r)), by simp,
          rfl, rfl, _, rfl, fun room hroom => ?_⟩
        obtain ⟨es, h1, h2⟩ := slots_elements (P := P) (m := true)
          (Q := fun (kv : Item × Item) e =>
            ((∃ l', e.label = some l' ∧ AtomIs kv.1.bare l' ∧ kv.1.bare.isLabel = true) ∧
            ∃ cE, ValIs P n d kv.2 e.itm e.cur cE) ∨ (kv = (notItem, notItem) ∧ e.label = none))
          (r := r) (r' := r) (k := 0)
          (left := some kvs.length) (pos := pos + h.length) hroom (readsPairs_run P hall)
          (pairs hall) (.inl ⟨by rw [hall.length], rfl, rfl⟩)
        refine ⟨es, ?_, h2⟩
        rw [h1, List.length_append, ← Nat.add_assoc]
        rfl
      | @mapIndef d kvs bss hall =>
        rw [List.cons_append, List.append_assoc]
        refine ⟨_, _, nextItem_val (decodeAtom_mapIndef pos (bss.flatten ++ ([0xff] ++ r))), by simp,
          rfl, rfl, _, rfl, fun room hroom => ?_⟩
        obtain ⟨es, h1, h2⟩ := slots_elements (P := P) (m := true)
          (Q := fun (kv : Item × Item) e =>
            ((∃ l', e.label = some l' ∧ AtomIs kv.1.bare l' ∧ kv.1.bare.isLabel = true) ∧
            ∃ cE, ValIs P n d kv.2 e.itm e.cur cE) ∨ (kv = (notItem, notItem) ∧ e.label = none))
          (r := [0xff] ++ r) (r' := r) (k := 1)
          (left := none) (pos := pos + 1) hroom (readsPairs_run P hall)
          (pairs hall) (.inr ⟨rfl, rfl, rfl⟩)
        refine ⟨es, ?_, h2⟩
        rw [h1]
        simp only [List.length_cons, List.length_append, List.length_nil]
        congr 3
        omega
      | @tag _ t x h b hh hx' =>
        have henc := Reads.tag hh hx'
        rw [← Item.tagged_bare (.tag t x)] at henc
        obtain ⟨tb, b0, hb, htb, h0⟩ := reads_tagged _ henc
        obtain ⟨v, err, c1, hd⟩ := fetch_bare (P := P) h0 (Item.bare_isTag _) (pos + tb.length) r
        obtain ⟨it0, c0, g1, g2, g3⟩ := ih h0 (pos + tb.length) r
        rw [hd.nextItem] at g1
        simp only [Prod.mk.injEq, Except.ok.injEq] at g1
        obtain ⟨rfl, rfl⟩ := g1
        obtain ⟨fuel', hf', he⟩ := tagHeads_raw P htb pos (b0 ++ r)
        rw [hd _ _ _ hf'] at he
        simp only [decide_eq_true_eq] at he
        have hpos : pos + (h ++ b).length = pos + tb.length + b0.length := by
          rw [hb, List.length_append, Nat.add_assoc]
        rw [hpos, hb, List.append_assoc]
        exact ⟨tagContent P ⟨v, ((Item.tag t x).tagList.take P.maxTags).reverse,
          err.or (if P.maxTags < (Item.tag t x).tagList.length then some .tooManyTags else none)⟩, _,
          by unfold nextItem; simp only [he], tagContent_brk g2, _, g3, rfl⟩
      | _ => cases hx

/-- The item that the decoder makes of an encoding. -/
theorem encodes_item (P : QParams) (n : Nat) {x : Item} {b : Bytes} (h : Encodes x b) (d : Nat)
    (hf : x.fits d = true) (pos : Nat) (r : Bytes) : ∃ it c1,
      nextItem P ⟨pos, b ++ r⟩ = (.ok it, c1) ∧
      it.val ≠ .brk ∧ ValIs P n d x it c1 ⟨pos + b.length, r⟩ := reads_item P n (h.reads hf) pos r

/-- The tags around an item are collected, innermost first. -/
theorem encodes_tagged (P : QParams) : ∀ (ts : List Nat) {x : Item} {b : Bytes},
    Encodes (tagged ts x) b → ∃ tb b0, b = tb ++ b0 ∧ Encodes x b0 ∧
      ∀ pos r fuel tags over, b.length < fuel → ts.length + tags.length ≤ P.maxTags →
        ∃ fuel', b0.length < fuel' ∧ nextTagged P fuel ⟨pos, b ++ r⟩ tags over =
          nextTagged P fuel' ⟨pos + tb.length, b0 ++ r⟩ (ts.reverse ++ tags) over := by
  intro ts
  induction ts with
  | nil =>
    intro x b h
    exact ⟨[], b, rfl, h, fun pos r fuel tags over hf _ => ⟨fuel, hf, rfl⟩⟩
  | cons t ts ih =>
    intro x b h
    cases h with
    | @tag _ _ h b hh hx =>
      obtain ⟨tb, b0, rfl, h0, hrun⟩ := ih hx
      refine ⟨h ++ tb, b0, by simp, h0, fun pos r fuel tags over hf ht => ?_⟩
      rw [List.length_cons] at ht
      rw [List.length_append] at hf
      have hl := (hh.first []).length
      rw [List.append_nil] at hl
      cases fuel with
      | zero => omega
      | succ fuel =>
        obtain ⟨fuel', hf', he⟩ := hrun (pos + h.length) r fuel (t :: tags) over (by omega)
          (by simp only [List.length_cons]; omega)
        refine ⟨fuel', hf', ?_⟩
        rw [nextTagged, List.append_assoc, decodeAtom_tag hh]
        simp only
        rw [if_pos (by omega), he]
        simp [Nat.add_assoc]

/-- A header entry and the parameter it stands for. -/
def EntryIs (P : QParams) (d : Nat) (p : Label × Item) (e : Entry) : Prop :=
  (∃ l, e.label = some l ∧ AtomIs p.1.item l) ∧ ∃ cE, ValIs P 4 d p.2 e.itm e.cur cE

/-- The entries of a header map whose labels have no tags. -/
theorem EntryIs.of_pairs {P : QParams} {d : Nat} {m : List (Label × Item)} {es : List Entry}
    (h : Each (fun (kv : Item × Item) (e : Entry) =>
      ((∃ l, e.label = some l ∧ AtomIs kv.1.bare l ∧ kv.1.bare.isLabel = true) ∧
        ∃ cE', ValIs P 4 d kv.2 e.itm e.cur cE') ∨ (kv = (notItem, notItem) ∧ e.label = none))
      (m.map fun p => (p.1.item, p.2)) es) : Each (EntryIs P d) m es := by
  induction m generalizing es with
  | nil => cases h; exact .nil
  | cons p m ih =>
    cases h with
    | cons h1 h2 =>
      refine .cons ?_ (ih h2)
      have hb : p.1.item.bare = p.1.item := by
        rcases p with ⟨l | s, x⟩
        · simp only [Label.item, Spec.int]; split <;> rfl
        · rfl
      rcases h1 with ⟨⟨l, h1, h3, -⟩, h4⟩ | ⟨h1, -⟩
      · exact ⟨⟨l, h1, hb ▸ h3⟩, h4⟩
      · exfalso
        simp only [Prod.mk.injEq] at h1
        have := h1.1
        rcases p with ⟨l | s, x⟩
        · simp only [Label.item, Spec.int] at this; split at this <;> cases this
        · cases this

theorem Spec.Each.of_map {α β γ : Type} {R : β → γ → Prop} {f : α → β} :
    ∀ {as : List α} {cs : List γ}, Each R (as.map f) cs → Each (fun a c => R (f a) c) as cs := by
  intro as
  induction as with
  | nil => intro cs h; cases h; exact .nil
  | cons a as ih => intro cs h; cases h with | cons h1 h2 => exact .cons h1 (ih h2)

theorem decode_arr {xs : List Item} {b : Bytes} (h : Encodes (.arr xs) b) (hn : xs.length ≤ 65534)
    (pos : Nat) (r : Bytes) : ∃ cnt c1, decodeAtom ⟨pos, b ++ r⟩ = (.ok (.val (.arr cnt)), c1) := by
  cases h with
  | @arr _ h bss hh hall =>
    rw [List.append_assoc]
    exact ⟨_, _, decodeAtom_arr hh hn pos _⟩
  | @arrIndef _ bss hall => exact ⟨_, _, decodeAtom_arrIndef pos _⟩

theorem itm_eq {it : Itm} {v : Val} {t : List Nat} {e : Option QErr} (h1 : it.val = v)
    (h2 : it.tags = t) (h3 : it.err = e) : it = ⟨v, t, e⟩ := by
  cases it; simp_all

/-- Any encoding of a message within the limits is laid open as the message it
encodes. -/
theorem message_view {P : QParams} {m : Message} {pb msg : Bytes} (h : m.Encoded pb msg)
    (hf : m.Fits P msg) : ∃ v, IsView P msg v ∧ v.tags = m.tags.reverse ∧ v.prot.bytes = pb ∧
      Each (EntryIs P 12) m.prot v.protEntries ∧ Each (EntryIs P 13) m.unprot v.unprotEntries ∧
      AtomIs m.payItem v.payload ∧ v.payloadTags = [] ∧ v.sig.bytes = m.sig ∧ v.extra = [] := by
  obtain ⟨hp, hm⟩ := h
  obtain ⟨tb, b0, rfl, h0, hrun⟩ := encodes_tagged P m.tags hm
  have hpay : m.payItem.isAtom = true ∧ m.payItem.fits 14 = true := by
    unfold Message.payItem; split <;> exact ⟨rfl, rfl⟩
  have hfit : (m.body pb).fits 15 = true := by
    have h1 := hf.unprot
    simp only [Message.body, Item.fits, fitsAll, Nat.reduceSub, h1, hpay.2]
    rfl
  obtain ⟨cnt, c1', hd⟩ := decode_arr h0 (by simp) tb.length []
  obtain ⟨fuel', hf', he⟩ := hrun 0 [] ((tb ++ b0).length + 1) [] false (Nat.lt_succ_self _)
    (by simpa using hf.tags)
  rw [Nat.zero_add, nextTagged_val (fuel := fuel') (by omega) hd] at he
  simp only [List.append_nil] at he
  obtain ⟨it, c1, hn, hb, hv⟩ := encodes_item P 6 h0 15 hfit tb.length []
  rw [nextItem_val hd] at hn
  simp only [Prod.mk.injEq, Except.ok.injEq] at hn
  obtain ⟨rfl, rfl⟩ := hn
  obtain ⟨-, -, cnt', hcnt, hel⟩ := hv
  cases hcnt
  obtain ⟨es, hes, hall⟩ := hel 14 (by omega)
  cases hall with
  | @cons _ e0 _ _ v0 hall =>
  cases hall with
  | @cons _ e1 _ _ v1 hall =>
  cases hall with
  | @cons _ e2 _ _ v2 hall =>
  cases hall with
  | @cons _ e3 _ _ v3 hall =>
  cases hall
  obtain ⟨w0, v0⟩ := v0
  obtain ⟨w1, v1⟩ := v1
  obtain ⟨w2, v2⟩ := v2
  obtain ⟨w3, v3⟩ := v3
  have hplive : m.payItem.live := by unfold Message.payItem; split <;> exact ⟨rfl, rfl⟩
  rw [ValIs_atom rfl ⟨rfl, rfl⟩] at v0 v3
  rw [ValIs_atom hpay.1 hplive] at v2
  obtain ⟨e0e, e0t, o0, e0v⟩ := v0
  obtain ⟨e3e, e3t, o3, e3v⟩ := v3
  obtain ⟨e2e, e2t, e2v⟩ := v2
  obtain ⟨e1e, e1t, k1, e1v, hel1⟩ := v1
  obtain ⟨ue, hue, hueach⟩ := hel1 13 (by omega)
  have hprot : ∃ pe, IsProtected P ⟨o0, pb⟩ pe ∧ Each (EntryIs P 12) m.prot pe := by
    rcases hp with ⟨hnil, rfl⟩ | hp
    · rw [hnil]; exact ⟨[], .inl ⟨rfl, rfl⟩, .nil⟩
    · obtain ⟨it, c3, hn, hb, hv⟩ := encodes_item P 5 hp 13 hf.prot o0 []
      obtain ⟨ie, it', kp, iv, hel⟩ := hv
      obtain ⟨pe, hpe, hpeach⟩ := hel 12 (by omega)
      rw [List.append_nil] at hn
      refine ⟨pe, .inr ⟨?_, it, kp, c3, _, entry_arr hn hb, iv, ie, hpe⟩, EntryIs.of_pairs hpeach⟩
      obtain ⟨x, t, h, -⟩ := hp.first
      intro hc
      simp only at hc
      rw [hc] at h
      cases h
  obtain ⟨pe, hpe, hpeach⟩ := hprot
  refine ⟨⟨m.tags.reverse, ⟨o0, pb⟩, pe, ue, e2.itm.val, [], ⟨o3, m.sig⟩, []⟩,
    ⟨hf.size, cnt, c1', e0, e1, e2, e3, _, k1, _, ?_, hes, rfl, ?_, hpe, e1v, e1e, hue, ?_, ?_⟩,
    rfl, rfl, hpeach, EntryIs.of_pairs hueach, e2v, rfl, rfl, rfl⟩
  · have hni : nextItem P ⟨0, tb ++ b0⟩ = (.ok ⟨.arr cnt, m.tags.reverse, none⟩, c1') := by
      unfold nextItem nextRaw
      rw [he]
      simp only [Bool.false_eq_true, if_false]
      unfold tagContent
      split <;> rfl
    exact entry_arr hni (by simp)
  · exact itm_eq e0v e0t e0e
  · exact itm_eq rfl e2t e2e
  · exact itm_eq e3v e3t e3e

end TCose
