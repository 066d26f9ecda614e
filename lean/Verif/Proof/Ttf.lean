import Verif.Model.Ttf
import Verif.Spec.Ttf
/-
TrueType files: checksums, directory, character map.
-/
namespace Verif.Proof
open Verif Verif.Model Verif.Spec

/-! ### Sums -/

theorem byte_lt256 (a : UInt8) : a.toNat < 256 := a.toNat_lt

theorem sum32_lt (b : Bytes) : sum32 b < 4294967296 := by
  fun_cases sum32 b
  · exact Nat.mod_lt _ (by decide)
  all_goals
    first
    | (rename_i a b c; have := byte_lt256 a; have := byte_lt256 b; have := byte_lt256 c; omega)
    | (rename_i a b; have := byte_lt256 a; have := byte_lt256 b; omega)
    | (rename_i a; have := byte_lt256 a; omega)
    | omega

theorem sum32_pad (b : Bytes) : sum32 (b ++ List.replicate ((4 - b.length % 4) % 4) 0) = sum32 b := by
  fun_induction sum32 b with
  | case1 a b c d r ih =>
    have e : (4 - (a :: b :: c :: d :: r).length % 4) % 4 = (4 - r.length % 4) % 4 := by
      simp only [List.length_cons]
      omega
    rw [e]
    simp only [List.cons_append, sum32, ih]
  | case2 a b c =>
    have := byte_lt256 a; have := byte_lt256 b; have := byte_lt256 c
    simp only [List.length_cons, List.length_nil, List.replicate, List.cons_append, List.nil_append, sum32, UInt8.toNat_zero]
    omega
  | case3 a b =>
    have := byte_lt256 a; have := byte_lt256 b
    simp only [List.length_cons, List.length_nil, List.replicate, List.cons_append, List.nil_append, sum32, UInt8.toNat_zero]
    omega
  | case4 a =>
    have := byte_lt256 a
    simp only [List.length_cons, List.length_nil, List.replicate, List.cons_append, List.nil_append, sum32, UInt8.toNat_zero]
    omega
  | case5 => rfl

theorem sumLoop_sum (b : Bytes) (s : Nat × Nat) (hb : b.length % 4 = 0) (h1 : s.1 < 65536) (h2 : s.2 < 65536) :
    (sumLoop b s).1 < 65536 ∧ (sumLoop b s).2 < 65536 ∧ (sumLoop b s).1 * 65536 + (sumLoop b s).2 = (s.1 * 65536 + s.2 + sum32 b) % 4294967296 := by
  fun_induction sumLoop b s with
  | case1 a b c d r s hi0 lo0 hi lo ih =>
    have e1 : hi0 = s.1 + (a.toNat * 256 + b.toNat) := by rw [show hi0 = s.1 + (a.toNat <<< 8 + b.toNat) from rfl, Nat.shiftLeft_eq]
    have e2 : lo0 = s.2 + (c.toNat * 256 + d.toNat) := by rw [show lo0 = s.2 + (c.toNat <<< 8 + d.toNat) from rfl, Nat.shiftLeft_eq]
    have e3 : hi = hi0 + lo0 / 65536 := by rw [show hi = hi0 + lo0 >>> 16 from rfl, Nat.shiftRight_eq_div_pow]
    have e4 : lo = lo0 % 65536 := rfl
    obtain ⟨i1, i2, i3⟩ := ih (by simp only [List.length_cons] at hb; omega) (Nat.mod_lt _ (by decide)) (by omega)
    refine ⟨i1, i2, i3.trans ?_⟩
    rw [sum32]
    have := byte_lt256 a; have := byte_lt256 b; have := byte_lt256 c; have := byte_lt256 d
    generalize sum32 r = t at *
    dsimp only
    omega
  | case2 b s hne =>
    refine ⟨h1, h2, ?_⟩
    have : b = [] := by
      match b, hb, hne with
      | [], _, _ => rfl
      | [_], hb, _ => simp at hb
      | [_, _], hb, _ => simp at hb
      | [_, _, _], hb, _ => simp at hb
      | a :: b :: c :: d :: r, _, hne => exact absurd rfl (hne a b c d r)
    rw [this, sum32]
    omega

/-- The checksum is the sum of the words, in two halves. -/
theorem checksum_sum (b : Bytes) : (generateChecksum b).1 < 65536 ∧ (generateChecksum b).2 < 65536 ∧ (generateChecksum b).1 * 65536 + (generateChecksum b).2 = sum32 b := by
  unfold generateChecksum
  have hl : (b ++ List.replicate ((4 - b.length % 4) % 4) 0).length % 4 = 0 := by
    rw [List.length_append, List.length_replicate]
    omega
  have := sumLoop_sum _ (0, 0) hl (by decide) (by decide)
  rw [sum32_pad] at this
  have h := sum32_lt b
  refine ⟨this.1, this.2.1, this.2.2.trans ?_⟩
  omega

theorem sum32_append (a b : Bytes) (h : a.length % 4 = 0) : sum32 (a ++ b) = (sum32 a + sum32 b) % 4294967296 := by
  fun_induction sum32 a with
  | case1 w x y z r ih =>
    rw [List.cons_append, List.cons_append, List.cons_append, List.cons_append, sum32, ih (by simp only [List.length_cons] at h; omega)]
    omega
  | case2 => simp at h
  | case3 => simp at h
  | case4 => simp at h
  | case5 =>
    have := sum32_lt b
    rw [List.nil_append]
    omega

/-! ### Numbers in files -/

theorem pack16_length (n : Int) : (packUint16 n).length = 2 := rfl
theorem pack32_length (n : Int) : (packUint32 n).length = 4 := rfl

theorem byteAt_app (a b : Bytes) (i : Nat) : byteAt (a ++ b) (a.length + i) = byteAt b i := by
  unfold byteAt
  rw [List.getD_eq_getElem?_getD, List.getD_eq_getElem?_getD, List.getElem?_append_right (by omega), Nat.add_sub_cancel_left]

theorem u16At_app (a b : Bytes) (i : Nat) : u16At (a ++ b) (a.length + i) = u16At b i := by
  unfold u16At
  rw [byteAt_app, Nat.add_assoc, byteAt_app]

theorem u32At_app (a b : Bytes) (i : Nat) : u32At (a ++ b) (a.length + i) = u32At b i := by
  unfold u32At
  rw [u16At_app, Nat.add_assoc, u16At_app]

theorem sliceAt_app (a b : Bytes) (i n : Nat) : sliceAt (a ++ b) (a.length + i) n = sliceAt b i n := by
  unfold sliceAt
  rw [List.drop_append, List.drop_eq_nil_of_le (by omega), List.nil_append, Nat.add_sub_cancel_left]

theorem u16At_pack (n : Int) (b : Bytes) : u16At (packUint16 n ++ b) 0 = (n % 65536).toNat := by
  unfold packUint16 u16At byteAt
  dsimp only
  have h : (n % 65536).toNat < 65536 := by omega
  generalize (n % 65536).toNat = m at *
  simp only [List.cons_append, List.getD_cons_zero, Nat.zero_add, List.getD_cons_succ]
  rw [UInt8.toNat_ofNat_of_lt' (by show m / 256 < 256; omega), UInt8.toNat_ofNat_of_lt' (by show m % 256 < 256; omega)]
  omega

theorem u32At_pack (n : Int) (b : Bytes) : u32At (packUint32 n ++ b) 0 = (n % 4294967296).toNat := by
  unfold packUint32 u32At
  dsimp only
  rw [List.append_assoc, u16At_pack]
  have := u16At_app (packUint16 (((n % 4294967296).toNat / 65536 : Nat) : Int)) (packUint16 (((n % 4294967296).toNat % 65536 : Nat) : Int) ++ b) 0
  rw [pack16_length] at this
  rw [this, u16At_pack]
  omega

theorem u32At_two (m n : Nat) (b : Bytes) (hm : m < 65536) (hn : n < 65536) : u32At (pack2Uint16 m n ++ b) 0 = m * 65536 + n := by
  unfold pack2Uint16 u32At
  rw [List.append_assoc, u16At_pack]
  have := u16At_app (packUint16 m) (packUint16 n ++ b) 0
  rw [pack16_length] at this
  rw [this, u16At_pack]
  omega

/-! ### The directory -/

/-- The room that tables take. -/
def room (ts : List (Bytes × Bytes)) : Nat := (ts.map fun t => (t.2.length + 3) / 4 * 4).sum

theorem room_cons (t : Bytes × Bytes) (ts : List (Bytes × Bytes)) : room (t :: ts) = (t.2.length + 3) / 4 * 4 + room ts := rfl
theorem room_append (a b : List (Bytes × Bytes)) : room (a ++ b) = room a + room b := by simp [room]

theorem room_mod (ts : List (Bytes × Bytes)) : room ts % 4 = 0 := by
  induction ts with
  | nil => rfl
  | cons t ts ih => rw [room_cons]; omega

theorem records_append (o : Nat) (a b : List (Bytes × Bytes)) : dirRecords o (a ++ b) = dirRecords o a ++ dirRecords (o + room a) b := by
  induction a generalizing o with
  | nil => simp [dirRecords, room]
  | cons t a ih =>
    rw [List.cons_append, dirRecords, ih, dirRecords, room_cons]
    simp only [List.append_assoc]
    rw [Nat.add_assoc]

theorem records_length (o : Nat) (ts : List (Bytes × Bytes)) (h : ∀ t ∈ ts, t.1.length = 4) : (dirRecords o ts).length = 16 * ts.length := by
  induction ts generalizing o with
  | nil => rfl
  | cons t ts ih =>
    rw [dirRecords]
    simp only [List.length_append, ih _ fun x hx => h x (by simp [hx]), h t (by simp), List.length_cons]
    show 4 + 4 + 8 + _ = _
    omega

theorem body_eq (d : Bytes) : (d ++ [0, 0, 0]).take ((d.length + 3) / 4 * 4) = d ++ List.replicate ((d.length + 3) / 4 * 4 - d.length) 0 := by
  rw [List.take_append, List.take_of_length_le (by omega)]
  congr 1
  have h : (d.length + 3) / 4 * 4 - d.length ≤ 3 := by omega
  generalize (d.length + 3) / 4 * 4 - d.length = k at *
  match k, h with
  | 0, _ => rfl
  | 1, _ => rfl
  | 2, _ => rfl
  | 3, _ => rfl

theorem bodies_append (a b : List (Bytes × Bytes)) : tableBodies (a ++ b) = tableBodies a ++ tableBodies b := by simp [tableBodies]

theorem bodies_cons (t : Bytes × Bytes) (ts : List (Bytes × Bytes)) : tableBodies (t :: ts) = t.2 ++ List.replicate ((t.2.length + 3) / 4 * 4 - t.2.length) 0 ++ tableBodies ts := by
  unfold tableBodies
  rw [List.flatMap_cons, body_eq]

theorem bodies_length (ts : List (Bytes × Bytes)) : (tableBodies ts).length = room ts := by
  induction ts with
  | nil => rfl
  | cons t ts ih =>
    rw [bodies_cons, room_cons, List.length_append, List.length_append, List.length_replicate, ih]
    omega

theorem headOffset_at (o b : Nat) (l1 l2 : List (Bytes × Bytes)) (d : Bytes) (h : ∀ t ∈ l1 ++ l2, t.1 ≠ B "head") : headOffset o b (l1 ++ (B "head", d) :: l2) = o + room l1 := by
  induction l1 generalizing o b with
  | nil =>
    rw [List.nil_append, headOffset, if_pos rfl]
    have : ∀ (l : List (Bytes × Bytes)) (o b : Nat), (∀ t ∈ l, t.1 ≠ B "head") → headOffset o b l = b := by
      intro l
      induction l with
      | nil => intro o b _; rfl
      | cons t l ih =>
        intro o b h
        rw [headOffset, if_neg (h t (by simp))]
        exact ih _ _ fun x hx => h x (by simp [hx])
    rw [this l2 _ _ fun t ht => h t (by simp [ht])]
    rfl
  | cons t l1 ih =>
    rw [List.cons_append, headOffset, ih _ _ fun x hx => h x (List.mem_cons_of_mem _ hx), room_cons, Nat.add_assoc]

theorem splice_mid (a b c v : Bytes) (i : Nat) (h : i + v.length ≤ b.length) : splice (a ++ b ++ c) (a.length + i) v = a ++ splice b i v ++ c := by
  unfold splice
  rw [List.append_assoc a b c, List.take_append, List.take_of_length_le (by omega), Nat.add_sub_cancel_left, List.take_append, show i - b.length = 0 by omega, List.take_zero, List.append_nil,
    Nat.add_assoc, List.drop_append, List.drop_eq_nil_of_le (by omega), List.nil_append, Nat.add_sub_cancel_left, List.drop_append, show i + v.length - b.length = 0 by omega, List.drop_zero]
  simp only [List.append_assoc]

theorem splice_length (b v : Bytes) (i : Nat) (h : i + v.length ≤ b.length) : (splice b i v).length = b.length := by
  unfold splice
  simp only [List.length_append, List.length_take, List.length_drop]
  omega

theorem splice_front (b c v : Bytes) (i : Nat) (h : i + v.length ≤ b.length) : splice (b ++ c) i v = splice b i v ++ c := by
  have := splice_mid [] b c v i h
  simpa using this

/-- The header of the file. -/
def ttfHeader (n : Nat) : Bytes := packHeader 0x00010000 n ((powLoop 1 0 n).1 * 16) (powLoop 1 0 n).2 (n * 16 - (powLoop 1 0 n).1 * 16)

theorem ttfHeader_length (n : Nat) : (ttfHeader n).length = 12 := rfl

/-- The file with these tables, before the sum of the file is put in. -/
def ttfPlain (ts : List (Bytes × Bytes)) : Bytes := ttfHeader ts.length ++ dirRecords (12 + ts.length * 16) ts ++ tableBodies ts

/-- The table with the sum of the file put in. -/
def patched (v : Bytes) (t : Bytes × Bytes) : Bytes × Bytes := if t.1 = B "head" then (t.1, splice t.2 8 v) else t

theorem patched_self (v : Bytes) (l : List (Bytes × Bytes)) (h : ∀ t ∈ l, t.1 ≠ B "head") : l.map (patched v) = l := by
  conv => rhs; rw [← List.map_id l]
  apply List.map_congr_left
  intro t ht
  unfold patched
  rw [if_neg (h t ht)]
  rfl

/-- The sum is put into the table "head" and nothing else changes. -/
theorem plain_patched (ts : List (Bytes × Bytes)) (h4 : ∀ t ∈ ts, t.1.length = 4) (hn : (ts.map (·.1)).Nodup) (d : Bytes) (hd : (B "head", d) ∈ ts) (hl : 12 ≤ d.length) (v : Bytes) (hv : v.length = 4) :
    splice (ttfPlain ts) (headOffset (12 + ts.length * 16) 0 ts + 8) v = ttfHeader ts.length ++ dirRecords (12 + ts.length * 16) ts ++ tableBodies (ts.map (patched v)) := by
  obtain ⟨l1, l2, e⟩ := List.append_of_mem hd
  have hno : ∀ t ∈ l1 ++ l2, t.1 ≠ B "head" := by
    intro t ht he
    rw [e, List.map_append, List.map_cons, List.nodup_append] at hn
    rcases List.mem_append.mp ht with ht | ht
    · exact hn.2.2 t.1 (List.mem_map_of_mem ht) (B "head") (by simp) he
    · have := (List.nodup_cons.mp hn.2.1).1
      exact this (List.mem_map.mpr ⟨t, ht, he⟩)
  have hlen : (ttfHeader ts.length ++ dirRecords (12 + ts.length * 16) ts).length = 12 + ts.length * 16 := by
    rw [List.length_append, ttfHeader_length, records_length _ _ h4]
    omega
  have hpl : ttfPlain ts = (ttfHeader ts.length ++ dirRecords (12 + ts.length * 16) ts ++ tableBodies l1) ++ d ++ (List.replicate ((d.length + 3) / 4 * 4 - d.length) 0 ++ tableBodies l2) := by
    unfold ttfPlain
    generalize ttfHeader ts.length ++ dirRecords (12 + ts.length * 16) ts = X
    rw [e, bodies_append, bodies_cons]
    simp only [List.append_assoc]
  have hoff : headOffset (12 + ts.length * 16) 0 ts + 8 = (ttfHeader ts.length ++ dirRecords (12 + ts.length * 16) ts ++ tableBodies l1).length + 8 := by
    rw [List.length_append, hlen, bodies_length]
    generalize 12 + ts.length * 16 = o
    rw [e, headOffset_at _ _ _ _ _ hno]
  rw [hoff, hpl, splice_mid _ _ _ _ _ (by omega)]
  have hb : tableBodies (ts.map (patched v)) = tableBodies l1 ++ (splice d 8 v ++ List.replicate ((d.length + 3) / 4 * 4 - d.length) 0 ++ tableBodies l2) := by
    rw [e, List.map_append, List.map_cons, patched_self v l1 fun t ht => hno t (by simp [ht]), patched_self v l2 fun t ht => hno t (by simp [ht]), bodies_append]
    have hp : patched v (B "head", d) = (B "head", splice d 8 v) := if_pos rfl
    rw [hp, bodies_cons]
    dsimp only
    rw [splice_length _ _ _ (by omega)]
  rw [hb]
  simp only [List.append_assoc]

theorem patched_room (ts : List (Bytes × Bytes)) (v : Bytes) (hv : v.length = 4) (hl : ∀ t ∈ ts, t.1 = B "head" → 12 ≤ t.2.length) : room (ts.map (patched v)) = room ts := by
  induction ts with
  | nil => rfl
  | cons t ts ih =>
    rw [List.map_cons, room_cons, room_cons, ih fun x hx => hl x (by simp [hx])]
    congr 3
    unfold patched
    split
    · rename_i h
      rw [splice_length _ _ _ (by have := hl t (by simp) h; omega)]
    · rfl

/-- What the directory says of a table. -/
theorem entry_at (n : Nat) (l1 l2 us : List (Bytes × Bytes)) (t u : Bytes × Bytes) (h4 : ∀ x ∈ l1 ++ t :: l2, x.1.length = 4) (hus : us.length = l1.length) (hr : room us = room l1)
    (vs : List (Bytes × Bytes)) (hu : u.2.length = t.2.length) (o : Nat) (ho : o = 12 + (l1 ++ t :: l2).length * 16) (hsz : o + room (l1 ++ t :: l2) < 4294967296) (file : Bytes)
    (hf : file = ttfHeader n ++ dirRecords o (l1 ++ t :: l2) ++ tableBodies (us ++ u :: vs)) :
    dirEntry file l1.length = ⟨t.1, sum32 t.2, o + room l1, t.2.length⟩ ∧ sliceAt file (o + room l1) t.2.length = u.2 := by
  have hp : (ttfHeader n ++ dirRecords o l1).length = 12 + 16 * l1.length := by
    rw [List.length_append, ttfHeader_length, records_length _ _ fun x hx => h4 x (by simp [hx])]
  have ht4 : t.1.length = 4 := h4 t (by simp)
  obtain ⟨s1, s2, s3⟩ := checksum_sum t.2
  have hsz' : o + room l1 + t.2.length < 4294967296 := by
    rw [room_append, room_cons] at hsz
    omega
  constructor
  · generalize hq : dirRecords (o + room l1 + (t.2.length + 3) / 4 * 4) l2 ++ tableBodies (us ++ u :: vs) = q
    have e : file = (ttfHeader n ++ dirRecords o l1) ++ (t.1 ++ (pack2Uint16 (generateChecksum t.2).1 (generateChecksum t.2).2 ++ (packUint32 (o + room l1 : Nat) ++ (packUint32 (t.2.length : Nat) ++ q)))) := by
      rw [hf, records_append, ← hq, dirRecords]
      simp only [pack2Uint32, List.append_assoc]
    unfold dirEntry
    rw [e, ← hp]
    have a1 := sliceAt_app (ttfHeader n ++ dirRecords o l1) (t.1 ++ (pack2Uint16 (generateChecksum t.2).1 (generateChecksum t.2).2 ++ (packUint32 (o + room l1 : Nat) ++ (packUint32 (t.2.length : Nat) ++ q)))) 0 4
    rw [Nat.add_zero] at a1
    rw [a1, u32At_app, u32At_app, u32At_app]
    have b1 := u32At_app t.1 (pack2Uint16 (generateChecksum t.2).1 (generateChecksum t.2).2 ++ (packUint32 (o + room l1 : Nat) ++ (packUint32 (t.2.length : Nat) ++ q)))
    rw [ht4] at b1
    have b2 := u32At_app (pack2Uint16 (generateChecksum t.2).1 (generateChecksum t.2).2) (packUint32 (o + room l1 : Nat) ++ (packUint32 (t.2.length : Nat) ++ q))
    rw [show (pack2Uint16 (generateChecksum t.2).1 (generateChecksum t.2).2).length = 4 from rfl] at b2
    have b3 := u32At_app (packUint32 (o + room l1 : Nat)) (packUint32 (t.2.length : Nat) ++ q)
    rw [pack32_length] at b3
    have c1 := b1 0
    have c2 := (b1 4).trans (b2 0)
    have c3 := (b1 8).trans ((b2 4).trans (b3 0))
    rw [u32At_two _ _ _ s1 s2, s3] at c1
    rw [u32At_pack] at c2 c3
    rw [c1, c2, c3]
    have c0 : sliceAt (t.1 ++ (pack2Uint16 (generateChecksum t.2).1 (generateChecksum t.2).2 ++ (packUint32 (o + room l1 : Nat) ++ (packUint32 (t.2.length : Nat) ++ q)))) 0 4 = t.1 := by
      unfold sliceAt
      rw [List.drop_zero, ← ht4, List.take_left]
    rw [c0]
    congr 1
    · omega
    · omega
  · have hq : (ttfHeader n ++ dirRecords o (l1 ++ t :: l2) ++ tableBodies us).length = o + room l1 := by
      rw [List.length_append, List.length_append, ttfHeader_length, records_length _ _ h4, bodies_length, hr]
      omega
    have e : file = (ttfHeader n ++ dirRecords o (l1 ++ t :: l2) ++ tableBodies us) ++ (u.2 ++ (List.replicate ((u.2.length + 3) / 4 * 4 - u.2.length) 0 ++ tableBodies vs)) := by
      rw [hf, bodies_append, bodies_cons]
      simp only [List.append_assoc]
    have a1 : ∀ X Y : Bytes, ∀ n, sliceAt (X ++ Y) X.length n = sliceAt Y 0 n := fun X Y n => sliceAt_app X Y 0 n
    rw [e, ← hq, a1, ← hu]
    unfold sliceAt
    rw [List.drop_zero, List.take_left]

end Verif.Proof
