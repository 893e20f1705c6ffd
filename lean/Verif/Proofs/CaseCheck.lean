import Verif.Model.Procedure
import Verif.Spec.Case
import Verif.Spec.Strings
import Verif.Proofs.Utf8

/-! A check of the section `normalize`: capital letters become what small ones become. -/

namespace Verif.Case

open Unicode

/-- What a character becomes: by the spec if it says so, then by the script. -/
def turned (sc : Script) (keys : List (Rune × List Rune)) (kept : List Rune) (c : Rune) : List Rune :=
  (keys.foldr (fun p r => cond (Nat.beq p.1 c) p.2 r) [c]).map fun r =>
    cond (kept.any (Nat.beq r) || !sc.is r) r (sc.normalize r)

/-- The characters with the small letter `c`. -/
def uppers (c : Rune) : List Rune :=
  lowerTable.filterMap fun e =>
    cond (Nat.ble e.2.2.2 c && Nat.ble c (e.2.2.2 + (e.2.1 - e.1))) (some (e.1 + (c - e.2.2.2))) none

/-- The Greek capital letters and their small letters. -/
def greekCaps : List (Rune × Rune) :=
  [(0x370, 0x371), (0x372, 0x373), (0x376, 0x377), (0x37F, 0x3F3), (0x386, 0x3AC), (0x388, 0x3AD), (0x389, 0x3AE),
   (0x38A, 0x3AF), (0x38C, 0x3CC), (0x38E, 0x3CD), (0x38F, 0x3CE), (0x391, 0x3B1), (0x392, 0x3B2), (0x393, 0x3B3),
   (0x394, 0x3B4), (0x395, 0x3B5), (0x396, 0x3B6), (0x397, 0x3B7), (0x398, 0x3B8), (0x399, 0x3B9), (0x39A, 0x3BA),
   (0x39B, 0x3BB), (0x39C, 0x3BC), (0x39D, 0x3BD), (0x39E, 0x3BE), (0x39F, 0x3BF), (0x3A0, 0x3C0), (0x3A1, 0x3C1),
   (0x3A3, 0x3C3), (0x3A4, 0x3C4), (0x3A5, 0x3C5), (0x3A6, 0x3C6), (0x3A7, 0x3C7), (0x3A8, 0x3C8), (0x3A9, 0x3C9),
   (0x3AA, 0x3CA), (0x3AB, 0x3CB), (0x3CF, 0x3D7), (0x3D8, 0x3D9), (0x3DA, 0x3DB), (0x3DC, 0x3DD), (0x3DE, 0x3DF),
   (0x3E0, 0x3E1), (0x3F4, 0x3B8), (0x3F7, 0x3F8), (0x3F9, 0x3F2), (0x3FA, 0x3FB), (0x3FD, 0x37B), (0x3FE, 0x37C),
   (0x3FF, 0x37D), (0x1F08, 0x1F00), (0x1F09, 0x1F01), (0x1F0A, 0x1F02), (0x1F0B, 0x1F03), (0x1F0C, 0x1F04),
   (0x1F0D, 0x1F05), (0x1F0E, 0x1F06), (0x1F0F, 0x1F07), (0x1F18, 0x1F10), (0x1F19, 0x1F11), (0x1F1A, 0x1F12),
   (0x1F1B, 0x1F13), (0x1F1C, 0x1F14), (0x1F1D, 0x1F15), (0x1F28, 0x1F20), (0x1F29, 0x1F21), (0x1F2A, 0x1F22),
   (0x1F2B, 0x1F23), (0x1F2C, 0x1F24), (0x1F2D, 0x1F25), (0x1F2E, 0x1F26), (0x1F2F, 0x1F27), (0x1F38, 0x1F30),
   (0x1F39, 0x1F31), (0x1F3A, 0x1F32), (0x1F3B, 0x1F33), (0x1F3C, 0x1F34), (0x1F3D, 0x1F35), (0x1F3E, 0x1F36),
   (0x1F3F, 0x1F37), (0x1F48, 0x1F40), (0x1F49, 0x1F41), (0x1F4A, 0x1F42), (0x1F4B, 0x1F43), (0x1F4C, 0x1F44),
   (0x1F4D, 0x1F45), (0x1F59, 0x1F51), (0x1F5B, 0x1F53), (0x1F5D, 0x1F55), (0x1F5F, 0x1F57), (0x1F68, 0x1F60),
   (0x1F69, 0x1F61), (0x1F6A, 0x1F62), (0x1F6B, 0x1F63), (0x1F6C, 0x1F64), (0x1F6D, 0x1F65), (0x1F6E, 0x1F66),
   (0x1F6F, 0x1F67), (0x1F88, 0x1F80), (0x1F89, 0x1F81), (0x1F8A, 0x1F82), (0x1F8B, 0x1F83), (0x1F8C, 0x1F84),
   (0x1F8D, 0x1F85), (0x1F8E, 0x1F86), (0x1F8F, 0x1F87), (0x1F98, 0x1F90), (0x1F99, 0x1F91), (0x1F9A, 0x1F92),
   (0x1F9B, 0x1F93), (0x1F9C, 0x1F94), (0x1F9D, 0x1F95), (0x1F9E, 0x1F96), (0x1F9F, 0x1F97), (0x1FA8, 0x1FA0),
   (0x1FA9, 0x1FA1), (0x1FAA, 0x1FA2), (0x1FAB, 0x1FA3), (0x1FAC, 0x1FA4), (0x1FAD, 0x1FA5), (0x1FAE, 0x1FA6),
   (0x1FAF, 0x1FA7), (0x1FB8, 0x1FB0), (0x1FB9, 0x1FB1), (0x1FBA, 0x1F70), (0x1FBB, 0x1F71), (0x1FBC, 0x1FB3),
   (0x1FC8, 0x1F72), (0x1FC9, 0x1F73), (0x1FCA, 0x1F74), (0x1FCB, 0x1F75), (0x1FCC, 0x1FC3), (0x1FD8, 0x1FD0),
   (0x1FD9, 0x1FD1), (0x1FDA, 0x1F76), (0x1FDB, 0x1F77), (0x1FE8, 0x1FE0), (0x1FE9, 0x1FE1), (0x1FEA, 0x1F7A),
   (0x1FEB, 0x1F7B), (0x1FEC, 0x1FE5), (0x1FF8, 0x1F78), (0x1FF9, 0x1F79), (0x1FFA, 0x1F7C), (0x1FFB, 0x1F7D),
   (0x1FFC, 0x1FF3), (0x2126, 0x3C9)]

/-- The Georgian capital letters and their small letters. -/
def georgianCaps : List (Rune × Rune) :=
  [(0x10A0, 0x2D00), (0x10A1, 0x2D01), (0x10A2, 0x2D02), (0x10A3, 0x2D03), (0x10A4, 0x2D04), (0x10A5, 0x2D05),
   (0x10A6, 0x2D06), (0x10A7, 0x2D07), (0x10A8, 0x2D08), (0x10A9, 0x2D09), (0x10AA, 0x2D0A), (0x10AB, 0x2D0B),
   (0x10AC, 0x2D0C), (0x10AD, 0x2D0D), (0x10AE, 0x2D0E), (0x10AF, 0x2D0F), (0x10B0, 0x2D10), (0x10B1, 0x2D11),
   (0x10B2, 0x2D12), (0x10B3, 0x2D13), (0x10B4, 0x2D14), (0x10B5, 0x2D15), (0x10B6, 0x2D16), (0x10B7, 0x2D17),
   (0x10B8, 0x2D18), (0x10B9, 0x2D19), (0x10BA, 0x2D1A), (0x10BB, 0x2D1B), (0x10BC, 0x2D1C), (0x10BD, 0x2D1D),
   (0x10BE, 0x2D1E), (0x10BF, 0x2D1F), (0x10C0, 0x2D20), (0x10C1, 0x2D21), (0x10C2, 0x2D22), (0x10C3, 0x2D23),
   (0x10C4, 0x2D24), (0x10C5, 0x2D25), (0x10C7, 0x2D27), (0x10CD, 0x2D2D), (0x1C90, 0x10D0), (0x1C91, 0x10D1),
   (0x1C92, 0x10D2), (0x1C93, 0x10D3), (0x1C94, 0x10D4), (0x1C95, 0x10D5), (0x1C96, 0x10D6), (0x1C97, 0x10D7),
   (0x1C98, 0x10D8), (0x1C99, 0x10D9), (0x1C9A, 0x10DA), (0x1C9B, 0x10DB), (0x1C9C, 0x10DC), (0x1C9D, 0x10DD),
   (0x1C9E, 0x10DE), (0x1C9F, 0x10DF), (0x1CA0, 0x10E0), (0x1CA1, 0x10E1), (0x1CA2, 0x10E2), (0x1CA3, 0x10E3),
   (0x1CA4, 0x10E4), (0x1CA5, 0x10E5), (0x1CA6, 0x10E6), (0x1CA7, 0x10E7), (0x1CA8, 0x10E8), (0x1CA9, 0x10E9),
   (0x1CAA, 0x10EA), (0x1CAB, 0x10EB), (0x1CAC, 0x10EC), (0x1CAD, 0x10ED), (0x1CAE, 0x10EE), (0x1CAF, 0x10EF),
   (0x1CB0, 0x10F0), (0x1CB1, 0x10F1), (0x1CB2, 0x10F2), (0x1CB3, 0x10F3), (0x1CB4, 0x10F4), (0x1CB5, 0x10F5),
   (0x1CB6, 0x10F6), (0x1CB7, 0x10F7), (0x1CB8, 0x10F8), (0x1CB9, 0x10F9), (0x1CBA, 0x10FA), (0x1CBD, 0x10FD),
   (0x1CBE, 0x10FE), (0x1CBF, 0x10FF)]

/-- The characters to be tried, with their small letters. -/
def suspects (sc : Script) (keys : List (Rune × List Rune)) (kept : List Rune) : List (Rune × Rune) :=
  match sc with
  | .latn => (0x1EE :: (keys.map (·.1) ++ kept).flatMap fun c => c :: uppers c).map fun c => (c, toLower c)
  | .cyrl => ((keys.map (·.1) ++ kept).flatMap fun c => c :: uppers c).map fun c => (c, toLower c)
  | .geor => georgianCaps
  | .grek => greekCaps
  | .hrkt => []

/-- One character and its replacement. -/
def keyOf (p : Bytes × Bytes) : Option (Rune × List Rune) :=
  match runes p.1 with
  | [k] => if encodeRune k = p.1 ∧ ValidUtf8 p.2 ∧ p.2 ≠ [] then some (k, runes p.2) else none
  | _ => none

/-- Apart from the given letters, and only from those, a capital letter becomes what its small letter becomes.  Specs for kana
replace nothing. -/
def caseOn (sc : Script) (keys : List (Rune × List Rune)) (kept irr : List Rune) : Bool :=
  ((suspects sc keys kept).all fun p =>
    !sc.is p.1 || irr.contains p.1 || turned sc keys kept p.1 == turned sc keys kept p.2) &&
  (irr.all fun c => sc.is c && !(turned sc keys kept c == turned sc keys kept (toLower c))) &&
  (!decide (sc = .hrkt) || keys.isEmpty && kept.isEmpty)

/-- The letters of the replacements. -/
def keptOf (normalize : List (Bytes × List Bytes)) : List Rune := normalize.flatMap fun (to, _) => lettersOf to

/-- No letter occurs twice. -/
def distinct : List Rune → Bool
  | [] => true
  | k :: ks => !ks.any (Nat.beq k) && distinct ks

/-- Neither the characters nor their replacements are white space. -/
def spaceless (keys : List (Rune × List Rune)) : Bool :=
  keys.all fun k => !isSpace k.1 && k.2.all fun c => !isSpace c

/-- Combining accents. -/
def accent (c : Rune) : Bool := Nat.ble 0x300 c && Nat.ble c 0x36F

/-- Keys are neither syllables nor apostrophes nor zero width spaces, and no pair has combining accents; letters of the script
become letters of the script, other keys become no further keys. -/
def steady (sc : Script) (keys : List (Rune × List Rune)) : Bool :=
  keys.all fun k => !Nat.beq k.1 0x27 && !Nat.beq k.1 0x200B && !accent k.1 && !(Nat.ble 0xAC00 k.1 && Nat.ble k.1 0xD7A3) &&
    k.2.all fun c => !accent c && (sc.is c || (!sc.is k.1 && !keys.any fun j => Nat.beq j.1 c))

/-- All pairs replace one character, no two the same one, none by white space, and `caseOn` holds. -/
def CaseOk (sc : Script) (normalize : List (Bytes × List Bytes)) (irr : List Rune) : Prop :=
  ∃ keys, (normArgs normalize).mapM keyOf = some keys ∧ distinct (keys.map (·.1)) = true ∧
    caseOn sc keys (keptOf normalize) irr = true ∧ spaceless keys = true ∧ steady sc keys = true

theorem distinct_nodup : ∀ {l : List Rune}, distinct l = true → l.Nodup
  | [], _ => .nil
  | k :: ks, h => by
    simp only [distinct, Bool.and_eq_true, Bool.not_eq_true', List.any_eq_false] at h
    exact List.nodup_cons.2 ⟨fun hm => h.1 k hm (by simp), distinct_nodup h.2⟩

theorem keyOf_some {p : Bytes × Bytes} {k : Rune × List Rune} (h : keyOf p = some k) :
    runes p.1 = [k.1] ∧ encodeRune k.1 = p.1 ∧ ValidUtf8 p.2 ∧ p.2 ≠ [] ∧ runes p.2 = k.2 := by
  unfold keyOf at h
  split at h
  · rename_i c hc
    split at h
    · rename_i hx
      cases h
      exact ⟨hc, hx.1, hx.2.1, hx.2.2, rfl⟩
    · contradiction
  · contradiction

theorem keyOf_prefix {p q : Bytes × Bytes} {k l : Rune × List Rune} (hp : keyOf p = some k) (hq : keyOf q = some l)
    (h : p.1 <+: q.1) : k.1 = l.1 := by
  obtain ⟨h1, h2, _⟩ := keyOf_some hp
  obtain ⟨g1, _⟩ := keyOf_some hq
  obtain ⟨t, ht⟩ := h
  rw [← ht, runes_append (by rw [← h2]; exact encodeRune_validUtf8 _), h1] at g1
  simp at g1
  exact g1.1

theorem keys_prefixFree : ∀ {ps : List (Bytes × Bytes)} {ks : List (Rune × List Rune)}, ps.mapM keyOf = some ks →
    (ks.map (·.1)).Nodup → Spec.Strings.PrefixFree ps
  | [], _, _, _ => .nil
  | p :: ps, ks, h, hd => by
    rw [List.mapM_cons] at h
    cases hk : keyOf p with
    | none => simp [hk] at h
    | some k =>
      cases hs : ps.mapM keyOf with
      | none => simp [hk, hs] at h
      | some ls =>
        simp [hk, hs] at h
        subst h
        simp only [List.map_cons, List.nodup_cons, List.mem_map, not_exists, not_and] at hd
        refine .cons (fun q hq => ?_) (keys_prefixFree hs hd.2)
        obtain ⟨l, hl, hlk⟩ : ∃ l ∈ ls, keyOf q = some l := by
          clear hd hk
          induction ps generalizing ls with
          | nil => simp at hq
          | cons a as ih =>
            rw [List.mapM_cons] at hs
            cases ha : keyOf a with
            | none => simp [ha] at hs
            | some a' =>
              cases has : as.mapM keyOf with
              | none => simp [ha, has] at hs
              | some as' =>
                simp [ha, has] at hs
                subst hs
                rcases List.mem_cons.1 hq with rfl | hq
                · exact ⟨a', by simp, ha⟩
                · obtain ⟨l, hl, e⟩ := ih as' has hq
                  exact ⟨l, by simp [hl], e⟩
        exact ⟨fun hx => hd.1 l hl (keyOf_prefix hk hlk hx).symm, fun hx => hd.1 l hl (keyOf_prefix hlk hk hx)⟩

end Verif.Case
