import Verif.Proof.Ttf
/-
Claims C42 and C44: the TrueType files written.
-/
namespace Verif.Props
open Verif Verif.Model Verif.Spec Verif.Proof

/-- Tables that make a font: names of four bytes, no two alike, a table "head" with room for the sum of the file, and all of it within the limits of the numbers in the file. -/
structure TablesOk (tables : List (Bytes × Bytes)) : Prop where
  names : ∀ t ∈ tables, t.1.length = 4
  nodup : (tables.map (·.1)).Nodup
  head : B "head" ∈ tables.map (·.1)
  adjust : ∀ t ∈ tables, t.1 = B "head" → 12 ≤ t.2.length
  count : tables.length < 4096
  size : 12 + tables.length * 16 + (tables.map fun t => t.2.length + 3).sum < 4294967296

theorem bytesLe_total (a b : Bytes) : (bytesLe a b || bytesLe b a) = true := by
  induction a generalizing b with
  | nil => cases b <;> rfl
  | cons x a ih =>
    cases b with
    | nil => rfl
    | cons y b =>
      have := ih b
      simp only [bytesLe, Bool.or_eq_true, Bool.and_eq_true, decide_eq_true_eq, beq_iff_eq, UInt8.lt_iff_toNat_lt, ← UInt8.toNat_inj] at this ⊢
      by_cases h : x.toNat = y.toNat
      · rcases this with h' | h'
        · exact .inl (.inr ⟨h, h'⟩)
        · exact .inr (.inr ⟨h.symm, h'⟩)
      · by_cases h2 : x.toNat < y.toNat
        · exact .inl (.inl h2)
        · exact .inr (.inl (by omega))

theorem bytesLe_trans (a b c : Bytes) : bytesLe a b = true → bytesLe b c = true → bytesLe a c = true := by
  induction a generalizing b c with
  | nil => intro _ _; rfl
  | cons x a ih =>
    cases b with
    | nil => intro h; cases h
    | cons y b =>
      cases c with
      | nil => intro _ h; cases h
      | cons z c =>
        simp only [bytesLe, Bool.or_eq_true, Bool.and_eq_true, decide_eq_true_eq, beq_iff_eq, UInt8.lt_iff_toNat_lt, ← UInt8.toNat_inj]
        rintro (h | ⟨h, h'⟩) (g | ⟨g, g'⟩)
        · exact .inl (by omega)
        · exact .inl (by omega)
        · exact .inl (by omega)
        · exact .inr ⟨by omega, ih b c h' g'⟩

theorem powLoop_spec (s w n : Nat) (h : s = 2 ^ w) (hn : s ≤ n) : (powLoop s w n).1 = 2 ^ (powLoop s w n).2 ∧ (powLoop s w n).1 ≤ n ∧ n < 2 * (powLoop s w n).1 := by
  fun_induction powLoop s w n with
  | case1 s w hc ih => exact ih (by rw [h, Nat.pow_succ]) hc.2
  | case2 s w hc =>
    refine ⟨h, hn, ?_⟩
    have : 0 < s := by rw [h]; exact Nat.pow_pos (by decide)
    dsimp only
    omega

/-- The tables in the order of their names. -/
def sortedTables (tables : List (Bytes × Bytes)) : List (Bytes × Bytes) := tables.mergeSort fun a b => bytesLe a.1 b.1

theorem assemble_eq (tables : List (Bytes × Bytes)) : ∃ v, assembleTables tables = splice (ttfPlain (sortedTables tables)) (headOffset (12 + (sortedTables tables).length * 16) 0 (sortedTables tables) + 8) v ∧
    v = pack2Uint16 (calcInt32 (0xB1B0, 0xAFBA) (generateChecksum (ttfPlain (sortedTables tables)))).1 (calcInt32 (0xB1B0, 0xAFBA) (generateChecksum (ttfPlain (sortedTables tables)))).2 := by
  have hl : tables.length = (sortedTables tables).length := (List.length_mergeSort tables).symm
  refine ⟨_, ?_, rfl⟩
  unfold assembleTables ttfPlain ttfHeader
  dsimp only
  rw [show tables.mergeSort (fun a b => bytesLe a.1 b.1) = sortedTables tables from rfl, hl]

theorem room_le (ts : List (Bytes × Bytes)) : room ts ≤ (ts.map fun t => t.2.length + 3).sum := by
  induction ts with
  | nil => exact Nat.le_refl _
  | cons t ts ih => rw [room_cons, List.map_cons, List.sum_cons]; omega

theorem sorted_ok {tables : List (Bytes × Bytes)} (h : TablesOk tables) : TablesOk (sortedTables tables) := by
  have hp : (sortedTables tables).Perm tables := List.mergeSort_perm _ _
  exact ⟨fun t ht => h.names t (hp.mem_iff.mp ht), (hp.map _).nodup_iff.mpr h.nodup, (hp.map _).mem_iff.mpr h.head, fun t ht => h.adjust t (hp.mem_iff.mp ht), by rw [hp.length_eq]; exact h.count,
    by rw [hp.length_eq, (hp.map _).sum_nat]; exact h.size⟩

theorem get_split {α : Type} {ts : List α} {i : Nat} {t : α} (h : ts[i]? = some t) : ts = ts.take i ++ t :: ts.drop (i + 1) ∧ (ts.take i).length = i := by
  obtain ⟨hi, rfl⟩ := List.getElem?_eq_some_iff.mp h
  refine ⟨?_, by rw [List.length_take]; omega⟩
  rw [← List.drop_eq_getElem_cons hi, List.take_append_drop]

/-- What a file with these tables has for each of them. -/
theorem file_entry {ts : List (Bytes × Bytes)} (h : TablesOk ts) {v : Bytes} (hv : v.length = 4) {i : Nat} {t : Bytes × Bytes} (ht : ts[i]? = some t) :
    dirEntry (ttfHeader ts.length ++ dirRecords (12 + ts.length * 16) ts ++ tableBodies (ts.map (patched v))) i = ⟨t.1, sum32 t.2, 12 + ts.length * 16 + room (ts.take i), t.2.length⟩ ∧
    sliceAt (ttfHeader ts.length ++ dirRecords (12 + ts.length * 16) ts ++ tableBodies (ts.map (patched v))) (12 + ts.length * 16 + room (ts.take i)) t.2.length = (patched v t).2 := by
  obtain ⟨hs, hi⟩ := get_split ht
  have hl := h.adjust
  have hmem : t ∈ ts := List.mem_of_getElem? ht
  have hpl : (patched v t).2.length = t.2.length := by
    unfold patched
    split
    · rename_i hh
      exact splice_length _ _ _ (by have := hl t hmem hh; omega)
    · rfl
  have hsz := h.size
  have hrl := room_le ts
  generalize hl1 : ts.take i = l1 at *
  generalize hl2 : ts.drop (i + 1) = l2 at *
  have := entry_at ts.length l1 l2 (l1.map (patched v)) t (patched v t) (by rw [← hs]; exact h.names) (by simp) (patched_room l1 v hv fun x hx => hl x (by rw [hs]; simp [hx])) (l2.map (patched v)) hpl
    (12 + ts.length * 16) (by rw [← hs]) (by rw [← hs]; omega) (ttfHeader ts.length ++ dirRecords (12 + ts.length * 16) ts ++ tableBodies (ts.map (patched v)))
    (by
      have e : ts.map (patched v) = l1.map (patched v) ++ patched v t :: l2.map (patched v) := by
        conv => lhs; rw [hs]
        simp
      rw [← hs, e])
  rw [hi] at this
  exact this

theorem room_take_le (ts : List (Bytes × Bytes)) (i : Nat) : room (ts.take i) ≤ room ts := by
  conv => rhs; rw [← List.take_append_drop i ts]
  rw [room_append]
  omega

theorem room_take_next {ts : List (Bytes × Bytes)} {i : Nat} {t : Bytes × Bytes} (ht : ts[i]? = some t) {j : Nat} (hj : i < j) : room (ts.take i) + t.2.length ≤ room (ts.take j) := by
  obtain ⟨hs, hi⟩ := get_split ht
  have hlen : i < ts.length := (List.getElem?_eq_some_iff.mp ht).1
  have e : ts.take j = ts.take i ++ t :: (ts.drop (i + 1)).take (j - i - 1) := by
    conv => lhs; rw [hs]
    rw [List.take_append, hi, List.take_of_length_le (by omega), show j - i = (j - i - 1) + 1 by omega, List.take_succ_cons]
    rfl
  rw [e, room_append, room_cons]
  omega

theorem assemble_file {tables : List (Bytes × Bytes)} (h : TablesOk tables) : ∃ v : Bytes, v.length = 4 ∧
    assembleTables tables = ttfHeader (sortedTables tables).length ++ dirRecords (12 + (sortedTables tables).length * 16) (sortedTables tables) ++ tableBodies ((sortedTables tables).map (patched v)) := by
  obtain ⟨v, h1, h2⟩ := assemble_eq tables
  have hv : v.length = 4 := by rw [h2]; rfl
  have hs := sorted_ok h
  obtain ⟨t, ht, he⟩ := List.mem_map.mp hs.head
  exact ⟨v, hv, h1.trans (plain_patched _ hs.names hs.nodup t.2 (he ▸ ht) (hs.adjust t ht he) v hv)⟩

/-- **C44.** The file made of tables has: the number of tables and the search parameters of the specification in its header; the records of the directory in the order of the names, one for each table, with
the name and the length of the table; and at the place that the record says, which is a multiple of four beyond the directory, within the file and beyond the tables before it, exactly the bytes of the
table, but for the four bytes of the table "head" that hold the sum of the file. -/
theorem C44_directory (tables : List (Bytes × Bytes)) (h : TablesOk tables) :
    ∃ ts : List (Bytes × Bytes), ts.Perm tables ∧ ts.Pairwise (fun a b => bytesLe a.1 b.1 = true ∧ a.1 ≠ b.1) ∧
      u32At (assembleTables tables) 0 = 0x00010000 ∧ u16At (assembleTables tables) 4 = tables.length ∧
      (∃ e, 2 ^ e ≤ tables.length ∧ tables.length < 2 ^ (e + 1) ∧ u16At (assembleTables tables) 6 = 2 ^ e * 16 ∧ u16At (assembleTables tables) 8 = e ∧
        u16At (assembleTables tables) 10 = tables.length * 16 - 2 ^ e * 16) ∧
      ∀ (i : Nat) (t : Bytes × Bytes), ts[i]? = some t →
        (dirEntry (assembleTables tables) i).tag = t.1 ∧ (dirEntry (assembleTables tables) i).length = t.2.length ∧
        (dirEntry (assembleTables tables) i).offset % 4 = 0 ∧ 12 + 16 * tables.length ≤ (dirEntry (assembleTables tables) i).offset ∧
        (dirEntry (assembleTables tables) i).offset + t.2.length ≤ (assembleTables tables).length ∧
        (∀ j, i < j → j < tables.length → (dirEntry (assembleTables tables) i).offset + t.2.length ≤ (dirEntry (assembleTables tables) j).offset) ∧
        ∃ data, sliceAt (assembleTables tables) (dirEntry (assembleTables tables) i).offset (dirEntry (assembleTables tables) i).length = data ∧
          (t.1 ≠ B "head" → data = t.2) ∧ (t.1 = B "head" → data.take 8 = t.2.take 8 ∧ data.drop 12 = t.2.drop 12) := by
  obtain ⟨v, hv, hf⟩ := assemble_file h
  have hs := sorted_ok h
  have hp : (sortedTables tables).Perm tables := List.mergeSort_perm _ _
  have hlen : tables.length = (sortedTables tables).length := hp.length_eq.symm
  rw [hf, hlen]
  have hsort : (sortedTables tables).Pairwise fun a b => bytesLe a.1 b.1 = true :=
    List.pairwise_mergeSort (fun a b c => bytesLe_trans a.1 b.1 c.1) (fun a b => bytesLe_total a.1 b.1) tables
  generalize sortedTables tables = ts at *
  refine ⟨ts, hp, ?_, ?_, ?_, ?_, ?_⟩
  · refine hsort.and ?_
    have := hs.nodup
    rw [List.nodup_iff_pairwise_ne, List.pairwise_map] at this
    exact this
  · rw [List.append_assoc]
    unfold ttfHeader packHeader
    simp only [List.append_assoc]
    rw [u32At_pack]
    rfl
  · have hc := hs.count
    unfold ttfHeader packHeader
    simp only [List.append_assoc]
    rw [show 4 = (packUint32 (0x00010000 : Nat)).length + 0 from rfl, u16At_app, u16At_pack]
    omega
  · have hc := hs.count
    have hpos : 1 ≤ ts.length := by
      obtain ⟨t, ht, -⟩ := List.mem_map.mp hs.head
      exact List.length_pos_of_mem ht
    obtain ⟨p1, p2, p3⟩ := powLoop_spec 1 0 ts.length rfl hpos
    have hw : (powLoop 1 0 ts.length).2 < 65536 := by
      have : (powLoop 1 0 ts.length).2 < 2 ^ (powLoop 1 0 ts.length).2 := Nat.lt_two_pow_self
      omega
    refine ⟨(powLoop 1 0 ts.length).2, ?_, ?_, ?_, ?_, ?_⟩
    · rw [← p1]; exact p2
    · rw [Nat.pow_succ, ← p1]; omega
    · rw [← p1]
      unfold ttfHeader packHeader
      simp only [List.append_assoc]
      rw [show 6 = (packUint32 (0x00010000 : Nat)).length + 2 from rfl, u16At_app, show 2 = (packUint16 ts.length).length + 0 from rfl, u16At_app, u16At_pack]
      omega
    · unfold ttfHeader packHeader
      simp only [List.append_assoc]
      rw [show 8 = (packUint32 (0x00010000 : Nat)).length + 4 from rfl, u16At_app, show 4 = (packUint16 ts.length).length + 2 from rfl, u16At_app,
        show 2 = (packUint16 ((powLoop 1 0 ts.length).1 * 16 : Nat)).length + 0 from rfl, u16At_app, u16At_pack]
      omega
    · rw [← p1]
      unfold ttfHeader packHeader
      simp only [List.append_assoc]
      rw [show 10 = (packUint32 (0x00010000 : Nat)).length + 6 from rfl, u16At_app, show 6 = (packUint16 ts.length).length + 4 from rfl, u16At_app,
        show 4 = (packUint16 ((powLoop 1 0 ts.length).1 * 16 : Nat)).length + 2 from rfl, u16At_app, show 2 = (packUint16 ((powLoop 1 0 ts.length).2 : Nat)).length + 0 from rfl, u16At_app, u16At_pack]
      omega
  · intro i t ht
    obtain ⟨e1, e2⟩ := file_entry hs hv ht
    have hl := hs.adjust
    have hfl : (ttfHeader ts.length ++ dirRecords (12 + ts.length * 16) ts ++ tableBodies (ts.map (patched v))).length = 12 + ts.length * 16 + room ts := by
      rw [List.length_append, List.length_append, ttfHeader_length, records_length _ _ hs.names, bodies_length, patched_room _ _ hv hl]
      omega
    rw [e1]
    dsimp only
    have hm := room_mod (ts.take i)
    have hb := room_take_next ht (j := ts.length) (List.getElem?_eq_some_iff.mp ht).1
    rw [List.take_length] at hb
    refine ⟨rfl, rfl, by omega, by omega, by omega, ?_, _, e2, ?_, ?_⟩
    · intro j hij hj
      obtain ⟨e3, -⟩ := file_entry hs hv (List.getElem?_eq_getElem hj)
      rw [e3]
      dsimp only
      have := room_take_next ht hij
      omega
    · intro hne
      unfold patched
      rw [if_neg hne]
    · intro he
      have := hl t (List.mem_of_getElem? ht) he
      unfold patched
      rw [if_pos he]
      dsimp only
      unfold splice
      constructor
      · rw [List.append_assoc, List.take_left' (by rw [List.length_take]; omega)]
      · rw [hv, List.drop_left' (by rw [List.length_append, List.length_take, hv]; omega)]

/-- **C42.** The sum of every table in the directory is the sum of the words of the table (for "head", of the table with a zero where the sum of the file is put). -/
theorem C42_tables (tables : List (Bytes × Bytes)) (h : TablesOk tables) :
    ∃ ts : List (Bytes × Bytes), ts.Perm tables ∧ ∀ (i : Nat) (t : Bytes × Bytes), ts[i]? = some t →
      (dirEntry (assembleTables tables) i).tag = t.1 ∧ (dirEntry (assembleTables tables) i).sum = sum32 t.2 := by
  obtain ⟨v, hv, hf⟩ := assemble_file h
  refine ⟨sortedTables tables, List.mergeSort_perm _ _, fun i t ht => ?_⟩
  obtain ⟨e1, -⟩ := file_entry (sorted_ok h) hv ht
  rw [hf, e1]
  exact ⟨rfl, rfl⟩

theorem sum32_two (m n : Nat) (hm : m < 65536) (hn : n < 65536) : sum32 (pack2Uint16 m n) = m * 65536 + n := by
  unfold pack2Uint16 packUint16
  dsimp only
  have h1 : ((m : Int) % 65536).toNat = m := by omega
  have h2 : ((n : Int) % 65536).toNat = n := by omega
  rw [h1, h2]
  simp only [List.cons_append, List.nil_append, sum32]
  rw [UInt8.toNat_ofNat_of_lt' (by show m / 256 < 256; omega), UInt8.toNat_ofNat_of_lt' (by show m % 256 < 256; omega),
    UInt8.toNat_ofNat_of_lt' (by show n / 256 < 256; omega), UInt8.toNat_ofNat_of_lt' (by show n % 256 < 256; omega)]
  omega

/-- **C42.** The sum of the whole file. The field for it is in the table "head", at 8; the specification wants it to be such that the sum of the file is 0xB1B0AFBA. That is so iff the low half of the sum of
the file without it is not greater than 0xAFBA: for in that case there is a borrow in the subtraction, which is added to the high half instead of subtracted, and the sum of the file is 0xB1B2AFBA.
The tables come with a zero in the field, as `setOutTable` makes it. -/
theorem C42_adjustment (tables : List (Bytes × Bytes)) (h : TablesOk tables) (hz : ∀ t ∈ tables, t.1 = B "head" → sliceAt t.2 8 4 = [0, 0, 0, 0]) :
    ∃ i, i < tables.length ∧ (dirEntry (assembleTables tables) i).tag = B "head" ∧
      sum32 (assembleTables tables) =
        if sum32 (zeroed (assembleTables tables) ((dirEntry (assembleTables tables) i).offset + 8)) % 65536 ≤ 0xAFBA then 0xB1B0AFBA else 0xB1B2AFBA := by
  obtain ⟨v, h1, h2⟩ := assemble_eq tables
  have hv : v.length = 4 := by rw [h2]; rfl
  have hs := sorted_ok h
  have hp : (sortedTables tables).Perm tables := List.mergeSort_perm _ _
  have hz' : ∀ t ∈ sortedTables tables, t.1 = B "head" → sliceAt t.2 8 4 = [0, 0, 0, 0] := fun t ht => hz t (hp.mem_iff.mp ht)
  rw [← hp.length_eq]
  rw [h1]
  clear h1
  generalize sortedTables tables = ts at *
  obtain ⟨t, ht, he⟩ := List.mem_map.mp hs.head
  obtain ⟨i, hi⟩ := List.mem_iff_getElem?.mp ht
  have hil : i < ts.length := (List.getElem?_eq_some_iff.mp hi).1
  have hfile := plain_patched ts hs.names hs.nodup t.2 (he ▸ ht) (hs.adjust t ht he) v hv
  obtain ⟨e1, -⟩ := file_entry hs hv hi
  rw [← hfile] at e1
  refine ⟨i, hil, by rw [e1]; exact he, ?_⟩
  rw [e1]
  dsimp only
  obtain ⟨hsp, hlen⟩ := get_split hi
  -- the place of the table
  have hno : ∀ x ∈ ts.take i ++ ts.drop (i + 1), x.1 ≠ B "head" := by
    have hn := hs.nodup
    rw [hsp, List.map_append, List.map_cons, List.nodup_append] at hn
    intro x hx hxe
    rcases List.mem_append.mp hx with hx | hx
    · exact hn.2.2 x.1 (List.mem_map_of_mem hx) t.1 (by simp) (hxe.trans he.symm)
    · exact (List.nodup_cons.mp hn.2.1).1 (List.mem_map.mpr ⟨x, hx, hxe.trans he.symm⟩)
  have hoff : headOffset (12 + ts.length * 16) 0 ts = 12 + ts.length * 16 + room (ts.take i) := by
    have ht' : t = (B "head", t.2) := by rw [← he]
    generalize 12 + ts.length * 16 = o
    conv => lhs; rw [hsp, ht']
    exact headOffset_at _ _ _ _ _ hno
  rw [hoff]
  -- the file around the field
  have hpl : ∃ A C : Bytes, ttfPlain ts = A ++ [0, 0, 0, 0] ++ C ∧ A.length = 12 + ts.length * 16 + room (ts.take i) + 8 := by
    have hd := hs.adjust t ht he
    have hzt := hz' t ht he
    have e8 : t.2 = t.2.take 8 ++ [0, 0, 0, 0] ++ t.2.drop 12 := by
      rw [← hzt]
      unfold sliceAt
      rw [List.append_assoc, show t.2.drop 12 = (t.2.drop 8).drop 4 by rw [List.drop_drop], List.take_append_drop, List.take_append_drop]
    refine ⟨ttfHeader ts.length ++ dirRecords (12 + ts.length * 16) ts ++ tableBodies (ts.take i) ++ t.2.take 8,
      t.2.drop 12 ++ (List.replicate ((t.2.length + 3) / 4 * 4 - t.2.length) 0 ++ tableBodies (ts.drop (i + 1))), ?_, ?_⟩
    · unfold ttfPlain
      have : tableBodies ts = tableBodies (ts.take i) ++ (t.2 ++ List.replicate ((t.2.length + 3) / 4 * 4 - t.2.length) 0 ++ tableBodies (ts.drop (i + 1))) := by
        conv => lhs; rw [hsp]
        rw [bodies_append, bodies_cons]
      rw [this]
      generalize List.replicate ((t.2.length + 3) / 4 * 4 - t.2.length) (0 : UInt8) = R
      generalize tableBodies (ts.drop (i + 1)) = X
      rw [(congrArg (fun d : Bytes => d ++ R ++ X) e8 : t.2 ++ R ++ X = t.2.take 8 ++ [0, 0, 0, 0] ++ t.2.drop 12 ++ R ++ X)]
      simp only [List.append_assoc]
    · rw [List.length_append, List.length_append, List.length_append, ttfHeader_length, records_length _ _ hs.names, bodies_length, List.length_take]
      omega
  obtain ⟨A, C, hA, hAl⟩ := hpl
  have hfull : splice (ttfPlain ts) (12 + ts.length * 16 + room (ts.take i) + 8) v = A ++ v ++ C := by
    rw [hA, ← hAl]
    have := splice_mid A [0, 0, 0, 0] C v 0 (by rw [hv]; decide)
    rw [Nat.add_zero] at this
    rw [this]
    unfold splice
    rw [hv]
    simp
  rw [hfull]
  have hzero : zeroed (A ++ v ++ C) (12 + ts.length * 16 + room (ts.take i) + 8) = ttfPlain ts := by
    unfold zeroed
    rw [hA, ← hAl, List.append_assoc A v C, List.take_left, ← List.append_assoc, List.drop_left' (by rw [List.length_append, hv])]
  rw [hzero]
  have hmod : A.length % 4 = 0 := by
    have := room_mod (ts.take i)
    omega
  have hplain : sum32 (ttfPlain ts) = (sum32 A + sum32 C) % 4294967296 := by
    rw [hA, List.append_assoc, sum32_append _ _ hmod, sum32_append _ _ rfl]
    have : sum32 [0, 0, 0, 0] = 0 := by decide
    rw [this]
    omega
  have hsum : sum32 (A ++ v ++ C) = (sum32 (ttfPlain ts) + sum32 v) % 4294967296 := by
    rw [List.append_assoc, sum32_append _ _ hmod, sum32_append _ _ (by rw [hv]), hplain]
    omega
  rw [hsum]
  obtain ⟨c1, c2, c3⟩ := checksum_sum (ttfPlain ts)
  rw [h2]
  generalize generateChecksum (ttfPlain ts) = y at *
  rw [← c3]
  unfold calcInt32
  dsimp only
  by_cases hb : y.2 > 0xAFBA
  · have hc : ¬ (y.1 * 65536 + y.2) % 65536 ≤ 0xAFBA := by omega
    rw [if_pos hb, if_neg hc]
    dsimp only
    rw [sum32_two _ _ (Nat.mod_lt _ (by decide)) (by omega)]
    split <;> omega
  · have hc : (y.1 * 65536 + y.2) % 65536 ≤ 0xAFBA := by omega
    rw [if_neg hb, if_pos hc]
    dsimp only
    rw [sum32_two _ _ (Nat.mod_lt _ (by decide)) (by omega)]
    split <;> omega

/-- A font of two tables. -/
def tinyFont : List (Bytes × Bytes) := [(B "head", [0, 1, 0, 0, 0, 0, 0, 0, 0, 0, 0, 0, 0x5F, 0x0F]), (B "maxp", [0, 1, 0x50, 0, 0, 7])]

theorem tinyFont_ok : TablesOk tinyFont ∧ ∀ t ∈ tinyFont, t.1 = B "head" → sliceAt t.2 8 4 = [0, 0, 0, 0] :=
  ⟨⟨by decide, by decide, by decide, by decide, by decide, by decide⟩, by decide⟩

/-- The file without the sorting. -/
def assembleSorted (ts : List (Bytes × Bytes)) : Bytes :=
  splice (ttfPlain ts) (headOffset (12 + ts.length * 16) 0 ts + 8) (pack2Uint16 (calcInt32 (0xB1B0, 0xAFBA) (generateChecksum (ttfPlain ts))).1 (calcInt32 (0xB1B0, 0xAFBA) (generateChecksum (ttfPlain ts))).2)

theorem assemble_sorted (ts : List (Bytes × Bytes)) (h : ts.Pairwise fun a b => bytesLe a.1 b.1 = true) : assembleTables ts = assembleSorted ts := by
  obtain ⟨v, h1, h2⟩ := assemble_eq ts
  have : sortedTables ts = ts := List.mergeSort_of_pairwise h
  rw [this] at h1 h2
  rw [h1, h2]
  rfl

example : dirEntry (assembleTables tinyFont) 1 = ⟨B "maxp", 0x00010000 + 0x00075000, 60, 6⟩ ∧ sum32 (assembleTables tinyFont) = 0xB1B0AFBA ∧ (assembleTables tinyFont).length = 68 := by
  rw [assemble_sorted _ (by decide)]
  decide +kernel

/-- The same with another second table. -/
def oddFont : List (Bytes × Bytes) := [(B "head", [0, 1, 0, 0, 0, 0, 0, 0, 0, 0, 0, 0, 0x5F, 0x0F]), (B "maxp", [0, 1, 0, 0, 0, 7])]

/-- A font of which the sum is wrong. -/
theorem C42_adjustment_false : ∃ tables : List (Bytes × Bytes), TablesOk tables ∧ (∀ t ∈ tables, t.1 = B "head" → sliceAt t.2 8 4 = [0, 0, 0, 0]) ∧ sum32 (assembleTables tables) ≠ 0xB1B0AFBA :=
  ⟨oddFont, ⟨by decide, by decide, by decide, by decide, by decide, by decide⟩, by decide, by rw [assemble_sorted _ (by decide)]; decide +kernel⟩

end Verif.Props
