import Verif.CRef.ApiLemmas
import Verif.Keccak.Fast
import Mathlib.Tactic.IntervalCases

/-! # Concrete points: the blocks of the streams, each evaluated by the kernel -/

namespace Verif.CRef
open Verif.Hash Verif.Keccak

theorem accepted_congr (st st' : Nat → Nat) (T : Nat) (h : ∀ j < 2 * T, st j = st' j) : accepted st T = accepted st' T := by
  unfold accepted
  have : (List.range T).map (word16 st) = (List.range T).map (word16 st') := by
    refine List.map_congr_left fun k hk => ?_
    rw [List.mem_range] at hk
    unfold word16
    rw [h _ (by omega), h _ (by omega)]
  rw [this]

/-- Keccak-256 of a message shorter than a block. -/
def nkeccak (m : Bytes) : Bytes := nbytes ((nsponge 1 m).take 4)

theorem nbytes_length (l : List Nat) : (nbytes l).length = 8 * l.length := by
  unfold nbytes
  rw [List.length_flatMap]
  simp only [List.length_map, List.length_range, List.map_const', List.sum_replicate, smul_eq_mul]
  omega

theorem nsponge_length (ds : Nat) (m : Bytes) (h : m.length < 136) : (nsponge ds m).length = 25 := by
  rw [← sponge_one ds m h, List.length_map]
  exact absorbBlocks_length F1600_length _

theorem nkeccak_eq (m : Bytes) (h : m.length < 136) : Keccak256 m = nkeccak m := by
  unfold Keccak256 Spec.spongeOut nkeccak
  have hl := nsponge_length 1 m h
  have e := fun k => spongeByte_one 1 m h k
  generalize nsponge 1 m = l at *
  apply List.ext_getElem
  · rw [List.length_map, List.length_range, nbytes_length, List.length_take, hl]
    rfl
  · intro j j1 j2
    rw [List.length_map, List.length_range] at j1
    rw [List.getElem_map, List.getElem_range, e, Nat.zero_add, Nat.div_eq_of_lt (by omega), Nat.mod_eq_of_lt (by omega)]
    show (nbytes l).getD j 0 = _
    have : nbytes l = nbytes (l.take 4) ++ nbytes (l.drop 4) := by
      unfold nbytes
      rw [← List.flatMap_append, List.take_append_drop]
    rw [this, List.getD_eq_getElem?_getD, List.getElem?_append_left j2, List.getElem?_eq_getElem j2, Option.getD_some]

/-- The point of a Keccak stream whose blocks are known. -/
theorem point_of_blocks (seed digest : Bytes) (blocks : List Bytes) (T : Nat) (hs : seed.length < 136) (h1 : nkeccak seed = digest) (hd : digest.length = 32)
    (h2 : ∀ i < blocks.length, nkeccak (digest ++ ctrBytes i) = blocks.getD i [])
    (hT : 2 * T ≤ 32 * blocks.length) (h3 : (accepted (fun k => (blocks.getD (k / 32) []).getD (k % 32) 0) T).length = 512) :
    ∃ hm, IsPoint (streamByte Keccak256 seed) 512 hm := by
  refine ⟨_, T, rfl, ?_⟩
  rw [← h3]
  have hb : ∀ i < blocks.length, Keccak256 (Keccak256 seed ++ ctrBytes i) = blocks.getD i [] := by
    intro i hi
    have hc : (ctrBytes i).length = 8 := rfl
    rw [nkeccak_eq seed hs, h1, nkeccak_eq _ (by rw [List.length_append, hd, hc]; norm_num), h2 i hi]
  rw [accepted_congr _ _ T fun j hj => ?_]
  unfold streamByte
  rw [hb _ (by omega)]

def digest_empty : Bytes := [197, 210, 70, 1, 134, 247, 35, 60, 146, 126, 125, 178, 220, 199, 3, 192, 229, 0, 182, 83, 202, 130, 39, 59, 123, 250, 216, 4, 93, 133, 164, 112]

/-- The first blocks of the stream. -/
def blocks_empty : List Bytes := [[88, 30, 86, 40, 20, 125, 187, 185, 31, 145, 184, 171, 133, 214, 107, 170, 157, 252, 86, 195, 89, 49, 33, 11, 241, 69, 36, 224, 101, 0, 97, 168],
  [93, 195, 242, 4, 173, 204, 193, 137, 237, 26, 175, 139, 104, 36, 244, 169, 220, 103, 68, 185, 190, 211, 18, 114, 110, 98, 125, 154, 86, 165, 154, 84],
  [120, 247, 184, 232, 19, 72, 73, 1, 21, 45, 166, 201, 103, 94, 89, 171, 206, 84, 114, 166, 130, 11, 71, 6, 100, 114, 166, 200, 149, 178, 127, 171],
  [36, 185, 159, 174, 180, 83, 44, 119, 136, 182, 250, 133, 157, 249, 204, 113, 159, 142, 159, 248, 20, 52, 24, 200, 139, 122, 116, 65, 16, 241, 150, 3],
  [26, 219, 127, 190, 188, 176, 97, 42, 77, 19, 212, 212, 46, 65, 186, 70, 113, 81, 50, 53, 53, 141, 73, 207, 129, 188, 12, 231, 248, 227, 246, 69],
  [53, 174, 82, 180, 98, 166, 11, 163, 155, 130, 83, 142, 42, 69, 140, 249, 139, 152, 28, 71, 15, 98, 221, 95, 87, 210, 219, 182, 109, 133, 125, 103],
  [114, 68, 8, 161, 196, 129, 220, 59, 64, 5, 146, 229, 8, 164, 114, 63, 47, 193, 255, 231, 135, 152, 93, 182, 120, 185, 42, 8, 84, 219, 29, 169],
  [50, 235, 195, 154, 154, 120, 28, 211, 168, 214, 133, 240, 86, 175, 236, 29, 194, 158, 177, 132, 91, 160, 36, 49, 220, 84, 14, 184, 51, 223, 142, 212],
  [54, 250, 77, 95, 47, 28, 206, 155, 16, 46, 46, 195, 6, 239, 178, 220, 81, 10, 177, 142, 195, 186, 75, 160, 60, 13, 185, 0, 247, 87, 75, 64],
  [201, 89, 140, 240, 32, 141, 9, 49, 235, 172, 132, 52, 171, 77, 47, 146, 42, 81, 99, 3, 119, 58, 119, 255, 16, 26, 187, 216, 231, 218, 210, 192],
  [235, 89, 17, 156, 171, 117, 113, 112, 8, 117, 151, 167, 231, 189, 10, 228, 199, 233, 0, 149, 30, 55, 108, 22, 55, 11, 56, 192, 44, 163, 71, 210],
  [145, 176, 70, 209, 195, 126, 164, 69, 174, 234, 97, 2, 180, 157, 36, 35, 106, 188, 42, 95, 147, 41, 111, 97, 134, 132, 175, 49, 171, 176, 120, 64],
  [252, 49, 7, 103, 130, 96, 167, 21, 63, 195, 191, 91, 159, 69, 24, 235, 117, 46, 88, 221, 40, 80, 26, 93, 241, 135, 30, 3, 203, 141, 86, 177],
  [236, 38, 158, 93, 33, 15, 170, 180, 39, 146, 124, 232, 85, 68, 152, 193, 128, 68, 72, 203, 154, 119, 181, 87, 89, 10, 11, 154, 76, 34, 62, 237],
  [154, 34, 144, 201, 10, 62, 85, 33, 101, 35, 17, 214, 108, 85, 11, 230, 99, 143, 253, 130, 236, 42, 19, 2, 76, 146, 61, 57, 0, 98, 43, 108],
  [16, 57, 123, 22, 33, 117, 44, 92, 35, 156, 204, 235, 144, 125, 220, 95, 167, 98, 243, 22, 237, 131, 185, 253, 85, 241, 144, 157, 90, 18, 120, 81],
  [159, 14, 228, 249, 48, 54, 21, 55, 104, 194, 65, 58, 67, 178, 16, 239, 66, 55, 222, 62, 206, 57, 6, 189, 39, 235, 100, 193, 143, 108, 115, 143],
  [152, 138, 225, 106, 3, 75, 114, 48, 215, 192, 170, 12, 190, 209, 97, 116, 196, 232, 129, 203, 94, 88, 76, 64, 9, 245, 116, 242, 92, 142, 57, 143],
  [99, 199, 145, 71, 254, 154, 228, 84, 26, 0, 133, 173, 238, 243, 48, 252, 121, 164, 117, 84, 11, 147, 180, 140, 165, 42, 222, 141, 255, 187, 117, 210],
  [52, 192, 124, 244, 129, 22, 111, 24, 84, 143, 34, 31, 115, 63, 183, 45, 184, 239, 122, 131, 167, 36, 15, 125, 231, 57, 80, 252, 166, 160, 36, 90],
  [158, 147, 66, 183, 230, 21, 94, 34, 174, 170, 246, 90, 74, 124, 82, 201, 80, 146, 246, 229, 232, 28, 211, 100, 6, 252, 144, 236, 146, 227, 2, 232],
  [12, 1, 56, 18, 183, 150, 126, 56, 173, 39, 245, 106, 224, 85, 9, 91, 168, 122, 206, 176, 205, 242, 32, 131, 211, 86, 127, 113, 10, 44, 140, 117],
  [56, 139, 227, 223, 22, 252, 209, 158, 165, 238, 3, 156, 102, 1, 96, 125, 213, 127, 179, 105, 93, 147, 24, 75, 212, 25, 56, 170, 222, 45, 81, 47],
  [104, 92, 174, 141, 248, 176, 32, 217, 186, 108, 27, 173, 120, 108, 0, 247, 98, 117, 19, 176, 224, 52, 99, 152, 220, 186, 202, 80, 219, 101, 247, 41],
  [94, 226, 236, 132, 210, 240, 158, 214, 206, 105, 131, 176, 11, 123, 229, 11, 139, 29, 95, 178, 51, 115, 195, 183, 22, 4, 189, 128, 146, 98, 97, 55],
  [16, 20, 110, 218, 108, 245, 97, 81, 125, 95, 14, 236, 2, 202, 88, 72, 75, 111, 15, 1, 247, 160, 67, 167, 115, 61, 216, 133, 16, 97, 96, 106],
  [39, 177, 107, 57, 105, 199, 13, 213, 187, 199, 78, 182, 69, 74, 82, 247, 107, 134, 201, 10, 112, 148, 190, 114, 177, 212, 54, 147, 219, 160, 193, 62],
  [123, 85, 20, 140, 68, 175, 99, 9, 84, 146, 31, 3, 144, 106, 247, 154, 205, 120, 141, 14, 215, 219, 24, 141, 248, 245, 232, 36, 5, 45, 248, 172],
  [106, 110, 43, 48, 50, 203, 235, 232, 138, 168, 200, 3, 17, 238, 146, 183, 109, 144, 61, 3, 41, 222, 188, 210, 107, 7, 139, 10, 231, 74, 133, 57],
  [232, 104, 22, 47, 148, 5, 39, 17, 95, 10, 201, 147, 214, 47, 167, 175, 69, 159, 159, 147, 134, 232, 199, 185, 251, 79, 127, 102, 133, 194, 94, 246],
  [47, 131, 32, 72, 25, 33, 83, 85, 231, 233, 138, 213, 43, 8, 59, 62, 28, 164, 28, 124, 9, 8, 59, 83, 130, 159, 172, 102, 234, 227, 217, 63],
  [214, 248, 28, 157, 212, 17, 223, 216, 94, 80, 52, 0, 184, 2, 118, 66, 180, 167, 141, 229, 68, 104, 3, 51, 84, 201, 121, 115, 206, 43, 217, 11],
  [73, 165, 72, 44, 181, 9, 171, 208, 142, 58, 176, 70, 251, 184, 28, 0, 118, 115, 254, 173, 107, 162, 230, 219, 222, 117, 166, 9, 152, 114, 177, 69],
  [128, 104, 74, 192, 182, 237, 236, 191, 111, 161, 130, 161, 245, 45, 239, 92, 200, 176, 88, 152, 229, 16, 105, 86, 94, 49, 162, 215, 62, 175, 70, 214]]

set_option maxRecDepth 100000 in
theorem digest_empty_eq : nkeccak [] = digest_empty := by
  have a : chunk8 ([] ++ Spec.pad 1 136 (List.length (α := Nat) [])) ++ List.replicate 8 0 = [1, 0, 0, 0, 0, 0, 0, 0, 0, 0, 0, 0, 0, 0, 0, 0, 9223372036854775808, 0, 0, 0, 0, 0, 0, 0, 0] := by decide +kernel
  have b : nF [1, 0, 0, 0, 0, 0, 0, 0, 0, 0, 0, 0, 0, 0, 0, 0, 9223372036854775808, 0, 0, 0, 0, 0, 0, 0, 0] = [4333579421379646149, 13836122230913597074, 4262519377828905189, 8116759062988257915, 8406387447366859581, 14671339323370021561, 2243375101132795228, 9371364203318886753, 9347994793612953298, 12814238161780307547, 4391692840257016808, 4309499098775122448, 13438072403645551266, 18018124564071650747, 4323130096954625545, 16970298442240338249, 1971761234120675839, 450719451514497906, 18340686150147091359, 11254645818134300982, 16062291397582171322, 1601982631079003425, 7734681229251997073, 13256946727218518206, 11816912122432958423] := by decide +kernel
  have c : nbytes (List.take 4 [4333579421379646149, 13836122230913597074, 4262519377828905189, 8116759062988257915, 8406387447366859581, 14671339323370021561, 2243375101132795228, 9371364203318886753, 9347994793612953298, 12814238161780307547, 4391692840257016808, 4309499098775122448, 13438072403645551266, 18018124564071650747, 4323130096954625545, 16970298442240338249, 1971761234120675839, 450719451514497906, 18340686150147091359, 11254645818134300982, 16062291397582171322, 1601982631079003425, 7734681229251997073, 13256946727218518206, 11816912122432958423]) = digest_empty := by decide +kernel
  unfold nkeccak nsponge
  rw [nlanes_chunk _ (by decide +kernel), a, b, c]

set_option maxRecDepth 100000 in
theorem block_empty_0 : nkeccak (digest_empty ++ ctrBytes 0) = blocks_empty.getD 0 [] := by
  have a : chunk8 ((digest_empty ++ ctrBytes 0) ++ Spec.pad 1 136 (List.length (α := Nat) (digest_empty ++ ctrBytes 0))) ++ List.replicate 8 0 = [4333579421379646149, 13836122230913597074, 4262519377828905189, 8116759062988257915, 0, 1, 0, 0, 0, 0, 0, 0, 0, 0, 0, 0, 9223372036854775808, 0, 0, 0, 0, 0, 0, 0, 0] := by decide +kernel
  have b : nF [4333579421379646149, 13836122230913597074, 4262519377828905189, 8116759062988257915, 0, 1, 0, 0, 0, 0, 0, 0, 0, 0, 0, 0, 9223372036854775808, 0, 0, 0, 0, 0, 0, 0, 0] = [13383428243191111256, 12280144678555783455, 801976470247767197, 12132979308664997361, 18256169391328771144, 18039598188131395264, 6668891788878983701, 2921375094272811898, 1844502294224917377, 13415756638307929207, 4682218515947466109, 8049244627570386421, 13011024913638402299, 12628384313962596616, 17032139248978576185, 9022956646683148913, 3002121848662675324, 4525881771160706866, 13842659213284243994, 16223738378211117174, 11422371168798402557, 3215040249763440203, 6218965476549834713, 11219851696883559369, 4246702805930613947] := by decide +kernel
  have c : nbytes (List.take 4 [13383428243191111256, 12280144678555783455, 801976470247767197, 12132979308664997361, 18256169391328771144, 18039598188131395264, 6668891788878983701, 2921375094272811898, 1844502294224917377, 13415756638307929207, 4682218515947466109, 8049244627570386421, 13011024913638402299, 12628384313962596616, 17032139248978576185, 9022956646683148913, 3002121848662675324, 4525881771160706866, 13842659213284243994, 16223738378211117174, 11422371168798402557, 3215040249763440203, 6218965476549834713, 11219851696883559369, 4246702805930613947]) = blocks_empty.getD 0 [] := by decide +kernel
  unfold nkeccak nsponge
  rw [nlanes_chunk _ (by decide +kernel), a, b, c]

set_option maxRecDepth 100000 in
theorem block_empty_1 : nkeccak (digest_empty ++ ctrBytes 1) = blocks_empty.getD 1 [] := by
  have a : chunk8 ((digest_empty ++ ctrBytes 1) ++ Spec.pad 1 136 (List.length (α := Nat) (digest_empty ++ ctrBytes 1))) ++ List.replicate 8 0 = [4333579421379646149, 13836122230913597074, 4262519377828905189, 8116759062988257915, 72057594037927936, 1, 0, 0, 0, 0, 0, 0, 0, 0, 0, 0, 9223372036854775808, 0, 0, 0, 0, 0, 0, 0, 0] := by decide +kernel
  have b : nF [4333579421379646149, 13836122230913597074, 4262519377828905189, 8116759062988257915, 72057594037927936, 1, 0, 0, 0, 0, 0, 0, 0, 0, 0, 0, 9223372036854775808, 0, 0, 0, 0, 0, 0, 0, 0] = [9926440097185710941, 12246453318165928685, 8219865086010091484, 6096366836977066606, 5719026305255211512, 10911552318649088234, 17286084774362342482, 10669277776839934816, 3290903759484988662, 2481558453870115661, 11806875813205212901, 18105571116895483432, 845676780961743987, 4136204269307614140, 12227669521841650404, 7169146846013081060, 4092090437868875239, 16981298699353458855, 3663847234006440345, 14258427231867282311, 16407259443643762055, 1149541779053969365, 14861500656173695399, 11277914340367076771, 103469511737943155] := by decide +kernel
  have c : nbytes (List.take 4 [9926440097185710941, 12246453318165928685, 8219865086010091484, 6096366836977066606, 5719026305255211512, 10911552318649088234, 17286084774362342482, 10669277776839934816, 3290903759484988662, 2481558453870115661, 11806875813205212901, 18105571116895483432, 845676780961743987, 4136204269307614140, 12227669521841650404, 7169146846013081060, 4092090437868875239, 16981298699353458855, 3663847234006440345, 14258427231867282311, 16407259443643762055, 1149541779053969365, 14861500656173695399, 11277914340367076771, 103469511737943155]) = blocks_empty.getD 1 [] := by decide +kernel
  unfold nkeccak nsponge
  rw [nlanes_chunk _ (by decide +kernel), a, b, c]

set_option maxRecDepth 100000 in
theorem block_empty_2 : nkeccak (digest_empty ++ ctrBytes 2) = blocks_empty.getD 2 [] := by
  have a : chunk8 ((digest_empty ++ ctrBytes 2) ++ Spec.pad 1 136 (List.length (α := Nat) (digest_empty ++ ctrBytes 2))) ++ List.replicate 8 0 = [4333579421379646149, 13836122230913597074, 4262519377828905189, 8116759062988257915, 144115188075855872, 1, 0, 0, 0, 0, 0, 0, 0, 0, 0, 0, 9223372036854775808, 0, 0, 0, 0, 0, 0, 0, 0] := by decide +kernel
  have b : nF [4333579421379646149, 13836122230913597074, 4262519377828905189, 8116759062988257915, 144115188075855872, 1, 0, 0, 0, 0, 0, 0, 0, 0, 0, 0, 9223372036854775808, 0, 0, 0, 0, 0, 0, 0, 0] = [92684517683820408, 12347003653270678805, 452342943340188878, 12357792258914153060, 15920818585296997522, 9919661575521360879, 14885754751507227820, 14130370961778025663, 10757425314365507151, 10511618065550660606, 5535661304255497166, 10540677893915681008, 11684769087083994998, 17239865199148322384, 18363661346034434412, 9623347797431293609, 13623665315469512348, 13591815211891719274, 69043850904870634, 8810905195393325242, 7926570151061391710, 9037401495173060032, 18412929911782768698, 6191990934720870430, 17810859446211379942] := by decide +kernel
  have c : nbytes (List.take 4 [92684517683820408, 12347003653270678805, 452342943340188878, 12357792258914153060, 15920818585296997522, 9919661575521360879, 14885754751507227820, 14130370961778025663, 10757425314365507151, 10511618065550660606, 5535661304255497166, 10540677893915681008, 11684769087083994998, 17239865199148322384, 18363661346034434412, 9623347797431293609, 13623665315469512348, 13591815211891719274, 69043850904870634, 8810905195393325242, 7926570151061391710, 9037401495173060032, 18412929911782768698, 6191990934720870430, 17810859446211379942]) = blocks_empty.getD 2 [] := by decide +kernel
  unfold nkeccak nsponge
  rw [nlanes_chunk _ (by decide +kernel), a, b, c]

set_option maxRecDepth 100000 in
theorem block_empty_3 : nkeccak (digest_empty ++ ctrBytes 3) = blocks_empty.getD 3 [] := by
  have a : chunk8 ((digest_empty ++ ctrBytes 3) ++ Spec.pad 1 136 (List.length (α := Nat) (digest_empty ++ ctrBytes 3))) ++ List.replicate 8 0 = [4333579421379646149, 13836122230913597074, 4262519377828905189, 8116759062988257915, 216172782113783808, 1, 0, 0, 0, 0, 0, 0, 0, 0, 0, 0, 9223372036854775808, 0, 0, 0, 0, 0, 0, 0, 0] := by decide +kernel
  have b : nF [4333579421379646149, 13836122230913597074, 4262519377828905189, 8116759062988257915, 216172782113783808, 1, 0, 0, 0, 0, 0, 0, 0, 0, 0, 0, 9223372036854775808, 0, 0, 0, 0, 0, 0, 0, 0] = [8587330624977615140, 8200203476487812744, 14418331471701839519, 258659080740305547, 17338241311411906502, 12282292407738306343, 2505840894292800073, 1814416557629715394, 2465583605578587866, 7517344217233860756, 322492128149222288, 2221078319595051292, 4488425551070291457, 2410277485587008301, 3671542405223201844, 6272240915515715725, 1368648489688770069, 11814477422206551460, 2458831842204082243, 4710975111609527038, 9095540060393237499, 5479902486110279356, 9992731833852658231, 2340074033863128462, 5583601652946463067] := by decide +kernel
  have c : nbytes (List.take 4 [8587330624977615140, 8200203476487812744, 14418331471701839519, 258659080740305547, 17338241311411906502, 12282292407738306343, 2505840894292800073, 1814416557629715394, 2465583605578587866, 7517344217233860756, 322492128149222288, 2221078319595051292, 4488425551070291457, 2410277485587008301, 3671542405223201844, 6272240915515715725, 1368648489688770069, 11814477422206551460, 2458831842204082243, 4710975111609527038, 9095540060393237499, 5479902486110279356, 9992731833852658231, 2340074033863128462, 5583601652946463067]) = blocks_empty.getD 3 [] := by decide +kernel
  unfold nkeccak nsponge
  rw [nlanes_chunk _ (by decide +kernel), a, b, c]

set_option maxRecDepth 100000 in
theorem block_empty_4 : nkeccak (digest_empty ++ ctrBytes 4) = blocks_empty.getD 4 [] := by
  have a : chunk8 ((digest_empty ++ ctrBytes 4) ++ Spec.pad 1 136 (List.length (α := Nat) (digest_empty ++ ctrBytes 4))) ++ List.replicate 8 0 = [4333579421379646149, 13836122230913597074, 4262519377828905189, 8116759062988257915, 288230376151711744, 1, 0, 0, 0, 0, 0, 0, 0, 0, 0, 0, 9223372036854775808, 0, 0, 0, 0, 0, 0, 0, 0] := by decide +kernel
  have b : nF [4333579421379646149, 13836122230913597074, 4262519377828905189, 8116759062988257915, 288230376151711744, 1, 0, 0, 0, 0, 0, 0, 0, 0, 0, 0, 9223372036854775808, 0, 0, 0, 0, 0, 0, 0, 0] = [3053916347030297370, 5096457597718106957, 14936624898816233841, 5041467491055615105, 13783569035331201688, 3635030677047012535, 7189219143566411184, 11167158594109709845, 14765327900512736533, 1512871311746138456, 5706334121064846324, 4531376735356611692, 2040706190984889051, 9262661993746468953, 11464370780685337696, 11474999154308990417, 9920976059158331909, 17892806384854781806, 14040606393095052195, 6941944271131115853, 12747319927987295888, 3088358069254658845, 1356602565421996502, 8083433247902033612, 5473852804632360269] := by decide +kernel
  have c : nbytes (List.take 4 [3053916347030297370, 5096457597718106957, 14936624898816233841, 5041467491055615105, 13783569035331201688, 3635030677047012535, 7189219143566411184, 11167158594109709845, 14765327900512736533, 1512871311746138456, 5706334121064846324, 4531376735356611692, 2040706190984889051, 9262661993746468953, 11464370780685337696, 11474999154308990417, 9920976059158331909, 17892806384854781806, 14040606393095052195, 6941944271131115853, 12747319927987295888, 3088358069254658845, 1356602565421996502, 8083433247902033612, 5473852804632360269]) = blocks_empty.getD 4 [] := by decide +kernel
  unfold nkeccak nsponge
  rw [nlanes_chunk _ (by decide +kernel), a, b, c]

set_option maxRecDepth 100000 in
theorem block_empty_5 : nkeccak (digest_empty ++ ctrBytes 5) = blocks_empty.getD 5 [] := by
  have a : chunk8 ((digest_empty ++ ctrBytes 5) ++ Spec.pad 1 136 (List.length (α := Nat) (digest_empty ++ ctrBytes 5))) ++ List.replicate 8 0 = [4333579421379646149, 13836122230913597074, 4262519377828905189, 8116759062988257915, 360287970189639680, 1, 0, 0, 0, 0, 0, 0, 0, 0, 0, 0, 9223372036854775808, 0, 0, 0, 0, 0, 0, 0, 0] := by decide +kernel
  have b : nF [4333579421379646149, 13836122230913597074, 4262519377828905189, 8116759062988257915, 360287970189639680, 1, 0, 0, 0, 0, 0, 0, 0, 0, 0, 0, 9223372036854775808, 0, 0, 0, 0, 0, 0, 0, 0] = [11748666995788394037, 17981823461262328475, 6907785221213296779, 7457263264261198423, 6140299478594784908, 643570532843699444, 3883782171932411459, 17000194860228125516, 8294166460247612239, 3512339337733849917, 3739261304623321318, 7858410106287386576, 9470171209835808462, 7518610131985993838, 17580915653521283463, 10240088147920817676, 2844881079026181982, 11841015339978631473, 808653786354051242, 9624787121769441369, 16290702382537688600, 9660368216270426174, 4049505353608229533, 8289221866190183319, 14016882866049026678] := by decide +kernel
  have c : nbytes (List.take 4 [11748666995788394037, 17981823461262328475, 6907785221213296779, 7457263264261198423, 6140299478594784908, 643570532843699444, 3883782171932411459, 17000194860228125516, 8294166460247612239, 3512339337733849917, 3739261304623321318, 7858410106287386576, 9470171209835808462, 7518610131985993838, 17580915653521283463, 10240088147920817676, 2844881079026181982, 11841015339978631473, 808653786354051242, 9624787121769441369, 16290702382537688600, 9660368216270426174, 4049505353608229533, 8289221866190183319, 14016882866049026678]) = blocks_empty.getD 5 [] := by decide +kernel
  unfold nkeccak nsponge
  rw [nlanes_chunk _ (by decide +kernel), a, b, c]

set_option maxRecDepth 100000 in
theorem block_empty_6 : nkeccak (digest_empty ++ ctrBytes 6) = blocks_empty.getD 6 [] := by
  have a : chunk8 ((digest_empty ++ ctrBytes 6) ++ Spec.pad 1 136 (List.length (α := Nat) (digest_empty ++ ctrBytes 6))) ++ List.replicate 8 0 = [4333579421379646149, 13836122230913597074, 4262519377828905189, 8116759062988257915, 432345564227567616, 1, 0, 0, 0, 0, 0, 0, 0, 0, 0, 0, 9223372036854775808, 0, 0, 0, 0, 0, 0, 0, 0] := by decide +kernel
  have b : nF [4333579421379646149, 13836122230913597074, 4262519377828905189, 8116759062988257915, 432345564227567616, 1, 0, 0, 0, 0, 0, 0, 0, 0, 0, 0, 9223372036854775808, 0, 0, 0, 0, 0, 0, 0, 0] = [4313465224629339250, 4571896929852720448, 13140826997217280303, 12186137320695183736, 2951902339126690976, 9971271074217900728, 16180962010012093912, 11409687651141762205, 393319825367050580, 8729366348060360729, 905825066160016765, 17241145137556177252, 4202870741246523519, 5358419873929140048, 260128384592633954, 12624082142837669057, 9719609910528511271, 4358647361577485816, 4509000023593278185, 383501806548143024, 4497815321684453563, 13066859077324681912, 304576899719968063, 5399444451311360091, 10355855124008680817] := by decide +kernel
  have c : nbytes (List.take 4 [4313465224629339250, 4571896929852720448, 13140826997217280303, 12186137320695183736, 2951902339126690976, 9971271074217900728, 16180962010012093912, 11409687651141762205, 393319825367050580, 8729366348060360729, 905825066160016765, 17241145137556177252, 4202870741246523519, 5358419873929140048, 260128384592633954, 12624082142837669057, 9719609910528511271, 4358647361577485816, 4509000023593278185, 383501806548143024, 4497815321684453563, 13066859077324681912, 304576899719968063, 5399444451311360091, 10355855124008680817]) = blocks_empty.getD 6 [] := by decide +kernel
  unfold nkeccak nsponge
  rw [nlanes_chunk _ (by decide +kernel), a, b, c]

set_option maxRecDepth 100000 in
theorem block_empty_7 : nkeccak (digest_empty ++ ctrBytes 7) = blocks_empty.getD 7 [] := by
  have a : chunk8 ((digest_empty ++ ctrBytes 7) ++ Spec.pad 1 136 (List.length (α := Nat) (digest_empty ++ ctrBytes 7))) ++ List.replicate 8 0 = [4333579421379646149, 13836122230913597074, 4262519377828905189, 8116759062988257915, 504403158265495552, 1, 0, 0, 0, 0, 0, 0, 0, 0, 0, 0, 9223372036854775808, 0, 0, 0, 0, 0, 0, 0, 0] := by decide +kernel
  have b : nF [4333579421379646149, 13836122230913597074, 4262519377828905189, 8116759062988257915, 504403158265495552, 1, 0, 0, 0, 0, 0, 0, 0, 0, 0, 0, 9223372036854775808, 0, 0, 0, 0, 0, 0, 0, 0] = [15212166246767520562, 2156291109540976296, 3541131521948753602, 15316424795957908700, 12495716892443330658, 16822012759766533157, 6853843101466780736, 8653538889393526485, 15050508631542202559, 9474993494345706692, 16177330329939583978, 851665479874746234, 4440952140541712633, 4198938636500604638, 3923759437224662615, 3547410655072170898, 8583123425844229967, 11164317329582681236, 18252826739187445118, 2247078219333618513, 2612503107643434248, 14014293904287161962, 11981177558206616024, 4800847843621469910, 15073706825179799968] := by decide +kernel
  have c : nbytes (List.take 4 [15212166246767520562, 2156291109540976296, 3541131521948753602, 15316424795957908700, 12495716892443330658, 16822012759766533157, 6853843101466780736, 8653538889393526485, 15050508631542202559, 9474993494345706692, 16177330329939583978, 851665479874746234, 4440952140541712633, 4198938636500604638, 3923759437224662615, 3547410655072170898, 8583123425844229967, 11164317329582681236, 18252826739187445118, 2247078219333618513, 2612503107643434248, 14014293904287161962, 11981177558206616024, 4800847843621469910, 15073706825179799968]) = blocks_empty.getD 7 [] := by decide +kernel
  unfold nkeccak nsponge
  rw [nlanes_chunk _ (by decide +kernel), a, b, c]

set_option maxRecDepth 100000 in
theorem block_empty_8 : nkeccak (digest_empty ++ ctrBytes 8) = blocks_empty.getD 8 [] := by
  have a : chunk8 ((digest_empty ++ ctrBytes 8) ++ Spec.pad 1 136 (List.length (α := Nat) (digest_empty ++ ctrBytes 8))) ++ List.replicate 8 0 = [4333579421379646149, 13836122230913597074, 4262519377828905189, 8116759062988257915, 576460752303423488, 1, 0, 0, 0, 0, 0, 0, 0, 0, 0, 0, 9223372036854775808, 0, 0, 0, 0, 0, 0, 0, 0] := by decide +kernel
  have b : nF [4333579421379646149, 13836122230913597074, 4262519377828905189, 8116759062988257915, 576460752303423488, 1, 0, 0, 0, 0, 0, 0, 0, 0, 0, 0, 9223372036854775808, 0, 0, 0, 0, 0, 0, 0, 0] = [11226941910869211702, 15903036046522068496, 11550531018397125201, 4632893360061353276, 13679676465198003802, 17502041051999071914, 1212973620306502756, 6486149204082648389, 13879630750416960534, 17736596670202172369, 14729621294648117294, 18254627976771559241, 14667074560504798883, 3524578468938972658, 17337384490489406663, 12886808247521493192, 6212403915751444158, 14307243827145586598, 5817469902749653761, 13653763088040169809, 1336119268671535226, 1626056140191572892, 4379806170721698897, 11911668650639015597, 8952732752916457220] := by decide +kernel
  have c : nbytes (List.take 4 [11226941910869211702, 15903036046522068496, 11550531018397125201, 4632893360061353276, 13679676465198003802, 17502041051999071914, 1212973620306502756, 6486149204082648389, 13879630750416960534, 17736596670202172369, 14729621294648117294, 18254627976771559241, 14667074560504798883, 3524578468938972658, 17337384490489406663, 12886808247521493192, 6212403915751444158, 14307243827145586598, 5817469902749653761, 13653763088040169809, 1336119268671535226, 1626056140191572892, 4379806170721698897, 11911668650639015597, 8952732752916457220]) = blocks_empty.getD 8 [] := by decide +kernel
  unfold nkeccak nsponge
  rw [nlanes_chunk _ (by decide +kernel), a, b, c]

set_option maxRecDepth 100000 in
theorem block_empty_9 : nkeccak (digest_empty ++ ctrBytes 9) = blocks_empty.getD 9 [] := by
  have a : chunk8 ((digest_empty ++ ctrBytes 9) ++ Spec.pad 1 136 (List.length (α := Nat) (digest_empty ++ ctrBytes 9))) ++ List.replicate 8 0 = [4333579421379646149, 13836122230913597074, 4262519377828905189, 8116759062988257915, 648518346341351424, 1, 0, 0, 0, 0, 0, 0, 0, 0, 0, 0, 9223372036854775808, 0, 0, 0, 0, 0, 0, 0, 0] := by decide +kernel
  have b : nF [4333579421379646149, 13836122230913597074, 4262519377828905189, 8116759062988257915, 648518346341351424, 1, 0, 0, 0, 0, 0, 0, 0, 0, 0, 0, 9223372036854775808, 0, 0, 0, 0, 0, 0, 0, 0] = [3533510555263064521, 10533723451158736107, 18408246284732551466, 13894408489699842576, 6773316187833536767, 3757667414504279396, 13929617554951330166, 13622122236670906570, 3434906960607298222, 8119885936388185117, 13952412062613110176, 9868381638557310579, 14677736292821974339, 7474513661993298579, 18069793109007734908, 3815647682798733535, 12082076084958690633, 2373627962521148250, 9104790661075367512, 9046045046407641049, 6161936491782436338, 12556535910570565026, 5158981113713612827, 297903596957025431, 6091761302729000360] := by decide +kernel
  have c : nbytes (List.take 4 [3533510555263064521, 10533723451158736107, 18408246284732551466, 13894408489699842576, 6773316187833536767, 3757667414504279396, 13929617554951330166, 13622122236670906570, 3434906960607298222, 8119885936388185117, 13952412062613110176, 9868381638557310579, 14677736292821974339, 7474513661993298579, 18069793109007734908, 3815647682798733535, 12082076084958690633, 2373627962521148250, 9104790661075367512, 9046045046407641049, 6161936491782436338, 12556535910570565026, 5158981113713612827, 297903596957025431, 6091761302729000360]) = blocks_empty.getD 9 [] := by decide +kernel
  unfold nkeccak nsponge
  rw [nlanes_chunk _ (by decide +kernel), a, b, c]

set_option maxRecDepth 100000 in
theorem block_empty_10 : nkeccak (digest_empty ++ ctrBytes 10) = blocks_empty.getD 10 [] := by
  have a : chunk8 ((digest_empty ++ ctrBytes 10) ++ Spec.pad 1 136 (List.length (α := Nat) (digest_empty ++ ctrBytes 10))) ++ List.replicate 8 0 = [4333579421379646149, 13836122230913597074, 4262519377828905189, 8116759062988257915, 720575940379279360, 1, 0, 0, 0, 0, 0, 0, 0, 0, 0, 0, 9223372036854775808, 0, 0, 0, 0, 0, 0, 0, 0] := by decide +kernel
  have b : nF [4333579421379646149, 13836122230913597074, 4262519377828905189, 8116759062988257915, 720575940379279360, 1, 0, 0, 0, 0, 0, 0, 0, 0, 0, 0, 9223372036854775808, 0, 0, 0, 0, 0, 0, 0, 0] = [8102386584534473195, 16432154993061491976, 1615726970807577031, 15152258883910110007, 7179147213556186182, 17560888586702306033, 8815085420207357252, 17806702629847878614, 2891679671343118707, 3412422284389932599, 5932567764913133797, 8794494178725269214, 13790844726056188079, 15851580276082660443, 7080311558165390834, 17579310576700768163, 6013608024902521144, 7539453949856796512, 14721604011272663796, 7726482221886012223, 6513776455120651907, 12051981195795714692, 17322898056554339017, 8688895396859587114, 11097210262009115105] := by decide +kernel
  have c : nbytes (List.take 4 [8102386584534473195, 16432154993061491976, 1615726970807577031, 15152258883910110007, 7179147213556186182, 17560888586702306033, 8815085420207357252, 17806702629847878614, 2891679671343118707, 3412422284389932599, 5932567764913133797, 8794494178725269214, 13790844726056188079, 15851580276082660443, 7080311558165390834, 17579310576700768163, 6013608024902521144, 7539453949856796512, 14721604011272663796, 7726482221886012223, 6513776455120651907, 12051981195795714692, 17322898056554339017, 8688895396859587114, 11097210262009115105]) = blocks_empty.getD 10 [] := by decide +kernel
  unfold nkeccak nsponge
  rw [nlanes_chunk _ (by decide +kernel), a, b, c]

set_option maxRecDepth 100000 in
theorem block_empty_11 : nkeccak (digest_empty ++ ctrBytes 11) = blocks_empty.getD 11 [] := by
  have a : chunk8 ((digest_empty ++ ctrBytes 11) ++ Spec.pad 1 136 (List.length (α := Nat) (digest_empty ++ ctrBytes 11))) ++ List.replicate 8 0 = [4333579421379646149, 13836122230913597074, 4262519377828905189, 8116759062988257915, 792633534417207296, 1, 0, 0, 0, 0, 0, 0, 0, 0, 0, 0, 9223372036854775808, 0, 0, 0, 0, 0, 0, 0, 0] := by decide +kernel
  have b : nF [4333579421379646149, 13836122230913597074, 4262519377828905189, 8116759062988257915, 792633534417207296, 1, 0, 0, 0, 0, 0, 0, 0, 0, 0, 0, 9223372036854775808, 0, 0, 0, 0, 0, 0, 0, 0] = [5018275264292368529, 2532322286948706990, 7020876057027460202, 4645657264952149126, 14986972698637514655, 87686100636715209, 15284858758425807239, 1419658877861448009, 16306625725634359334, 15260242281142270889, 12390244222765475897, 4938885521895182903, 13966964118629304403, 14624104946295293707, 1014071653008866978, 1598199345803902513, 4808630871487522474, 3799871986001970381, 5149757765912412096, 9234228413519890593, 6244642880594556455, 17247391288792836887, 11568140282642147966, 11323181888290301530, 16463835317578465412] := by decide +kernel
  have c : nbytes (List.take 4 [5018275264292368529, 2532322286948706990, 7020876057027460202, 4645657264952149126, 14986972698637514655, 87686100636715209, 15284858758425807239, 1419658877861448009, 16306625725634359334, 15260242281142270889, 12390244222765475897, 4938885521895182903, 13966964118629304403, 14624104946295293707, 1014071653008866978, 1598199345803902513, 4808630871487522474, 3799871986001970381, 5149757765912412096, 9234228413519890593, 6244642880594556455, 17247391288792836887, 11568140282642147966, 11323181888290301530, 16463835317578465412]) = blocks_empty.getD 11 [] := by decide +kernel
  unfold nkeccak nsponge
  rw [nlanes_chunk _ (by decide +kernel), a, b, c]

set_option maxRecDepth 100000 in
theorem block_empty_12 : nkeccak (digest_empty ++ ctrBytes 12) = blocks_empty.getD 12 [] := by
  have a : chunk8 ((digest_empty ++ ctrBytes 12) ++ Spec.pad 1 136 (List.length (α := Nat) (digest_empty ++ ctrBytes 12))) ++ List.replicate 8 0 = [4333579421379646149, 13836122230913597074, 4262519377828905189, 8116759062988257915, 864691128455135232, 1, 0, 0, 0, 0, 0, 0, 0, 0, 0, 0, 9223372036854775808, 0, 0, 0, 0, 0, 0, 0, 0] := by decide +kernel
  have b : nF [4333579421379646149, 13836122230913597074, 4262519377828905189, 8116759062988257915, 864691128455135232, 1, 0, 0, 0, 0, 0, 0, 0, 0, 0, 0, 9223372036854775808, 0, 0, 0, 0, 0, 0, 0, 0] = [1560321909097705980, 16940366549095531327, 6708762731364232821, 12778556895780571121, 6054434779399904620, 813235052691362462, 10448168626709949751, 10474675989010162439, 10506297896020514753, 17032088646397284937, 8507530304630871812, 3782190957013180371, 13465774846131551335, 3724914044580627785, 7504393866256422973, 3984921415561921626, 1073792800078005919, 14136943733331870420, 5163839312446496261, 5506178604756493465, 5005210400637548878, 4160375829522027872, 15827882724342214040, 2563843836394351036, 16244848693932691608] := by decide +kernel
  have c : nbytes (List.take 4 [1560321909097705980, 16940366549095531327, 6708762731364232821, 12778556895780571121, 6054434779399904620, 813235052691362462, 10448168626709949751, 10474675989010162439, 10506297896020514753, 17032088646397284937, 8507530304630871812, 3782190957013180371, 13465774846131551335, 3724914044580627785, 7504393866256422973, 3984921415561921626, 1073792800078005919, 14136943733331870420, 5163839312446496261, 5506178604756493465, 5005210400637548878, 4160375829522027872, 15827882724342214040, 2563843836394351036, 16244848693932691608]) = blocks_empty.getD 12 [] := by decide +kernel
  unfold nkeccak nsponge
  rw [nlanes_chunk _ (by decide +kernel), a, b, c]

set_option maxRecDepth 100000 in
theorem block_empty_13 : nkeccak (digest_empty ++ ctrBytes 13) = blocks_empty.getD 13 [] := by
  have a : chunk8 ((digest_empty ++ ctrBytes 13) ++ Spec.pad 1 136 (List.length (α := Nat) (digest_empty ++ ctrBytes 13))) ++ List.replicate 8 0 = [4333579421379646149, 13836122230913597074, 4262519377828905189, 8116759062988257915, 936748722493063168, 1, 0, 0, 0, 0, 0, 0, 0, 0, 0, 0, 9223372036854775808, 0, 0, 0, 0, 0, 0, 0, 0] := by decide +kernel
  have b : nF [4333579421379646149, 13836122230913597074, 4262519377828905189, 8116759062988257915, 936748722493063168, 1, 0, 0, 0, 0, 0, 0, 0, 0, 0, 0, 9223372036854775808, 0, 0, 0, 0, 0, 0, 0, 0] = [13018234308846823148, 13949974981543498279, 6320089158803539072, 17095138947942255193, 3874188141667649125, 9870245541287789017, 2112351576753192682, 4067133012555247757, 16425774199989034051, 6351470688006801172, 17266350560081141951, 3457670969712378704, 10145380730431771715, 15939751191327462783, 14945290278544916119, 7899194274694937938, 9059673122768085568, 3459429323293704616, 10203800861704550401, 150475611249267030, 16089942229277934987, 9776618148717470977, 1200443851020446507, 2812220657854451043, 17413361937010723885] := by decide +kernel
  have c : nbytes (List.take 4 [13018234308846823148, 13949974981543498279, 6320089158803539072, 17095138947942255193, 3874188141667649125, 9870245541287789017, 2112351576753192682, 4067133012555247757, 16425774199989034051, 6351470688006801172, 17266350560081141951, 3457670969712378704, 10145380730431771715, 15939751191327462783, 14945290278544916119, 7899194274694937938, 9059673122768085568, 3459429323293704616, 10203800861704550401, 150475611249267030, 16089942229277934987, 9776618148717470977, 1200443851020446507, 2812220657854451043, 17413361937010723885]) = blocks_empty.getD 13 [] := by decide +kernel
  unfold nkeccak nsponge
  rw [nlanes_chunk _ (by decide +kernel), a, b, c]

set_option maxRecDepth 100000 in
theorem block_empty_14 : nkeccak (digest_empty ++ ctrBytes 14) = blocks_empty.getD 14 [] := by
  have a : chunk8 ((digest_empty ++ ctrBytes 14) ++ Spec.pad 1 136 (List.length (α := Nat) (digest_empty ++ ctrBytes 14))) ++ List.replicate 8 0 = [4333579421379646149, 13836122230913597074, 4262519377828905189, 8116759062988257915, 1008806316530991104, 1, 0, 0, 0, 0, 0, 0, 0, 0, 0, 0, 9223372036854775808, 0, 0, 0, 0, 0, 0, 0, 0] := by decide +kernel
  have b : nF [4333579421379646149, 13836122230913597074, 4262519377828905189, 8116759062988257915, 1008806316530991104, 1, 0, 0, 0, 0, 0, 0, 0, 0, 0, 0, 9223372036854775808, 0, 0, 0, 0, 0, 0, 0, 0] = [2401894192324289178, 16576436779403518821, 149510407931662179, 7794431333194633804, 11478430803106346387, 9264972443251732820, 2134249209659293819, 651456112351583044, 10522016703268707189, 5189275433956050583, 8472909667511926036, 18278615056440256150, 9401591029059399212, 1327439176327573127, 13466453242749566811, 13531348888590323621, 12932847635509851796, 17051972519775748351, 5567618848964106963, 7245742472270444702, 13772252981104172384, 5283472263127116508, 5419734105877495111, 15643947645621657000, 3132394824933722213] := by decide +kernel
  have c : nbytes (List.take 4 [2401894192324289178, 16576436779403518821, 149510407931662179, 7794431333194633804, 11478430803106346387, 9264972443251732820, 2134249209659293819, 651456112351583044, 10522016703268707189, 5189275433956050583, 8472909667511926036, 18278615056440256150, 9401591029059399212, 1327439176327573127, 13466453242749566811, 13531348888590323621, 12932847635509851796, 17051972519775748351, 5567618848964106963, 7245742472270444702, 13772252981104172384, 5283472263127116508, 5419734105877495111, 15643947645621657000, 3132394824933722213]) = blocks_empty.getD 14 [] := by decide +kernel
  unfold nkeccak nsponge
  rw [nlanes_chunk _ (by decide +kernel), a, b, c]

set_option maxRecDepth 100000 in
theorem block_empty_15 : nkeccak (digest_empty ++ ctrBytes 15) = blocks_empty.getD 15 [] := by
  have a : chunk8 ((digest_empty ++ ctrBytes 15) ++ Spec.pad 1 136 (List.length (α := Nat) (digest_empty ++ ctrBytes 15))) ++ List.replicate 8 0 = [4333579421379646149, 13836122230913597074, 4262519377828905189, 8116759062988257915, 1080863910568919040, 1, 0, 0, 0, 0, 0, 0, 0, 0, 0, 0, 9223372036854775808, 0, 0, 0, 0, 0, 0, 0, 0] := by decide +kernel
  have b : nF [4333579421379646149, 13836122230913597074, 4262519377828905189, 8116759062988257915, 1080863910568919040, 1, 0, 0, 0, 0, 0, 0, 0, 0, 0, 0, 9223372036854775808, 0, 0, 0, 0, 0, 0, 0, 0] = [6641812335436183824, 6907533989864315939, 18282789216602776231, 5870462294677320021, 14757648040090258577, 13319738058790426491, 14621892852634481526, 18166860111300210037, 2990371799258713107, 2374002850598846560, 9890390510490537315, 18414831192526882708, 11789868891156156854, 13434852240502817119, 8933111840988475981, 3976577764821324172, 8263155583854091108, 9916754054117116371, 4253595285977189449, 1135545423925990222, 9683380505941011022, 11792214146380123600, 2138916931256651587, 9454791491930588907, 6699898474641449860] := by decide +kernel
  have c : nbytes (List.take 4 [6641812335436183824, 6907533989864315939, 18282789216602776231, 5870462294677320021, 14757648040090258577, 13319738058790426491, 14621892852634481526, 18166860111300210037, 2990371799258713107, 2374002850598846560, 9890390510490537315, 18414831192526882708, 11789868891156156854, 13434852240502817119, 8933111840988475981, 3976577764821324172, 8263155583854091108, 9916754054117116371, 4253595285977189449, 1135545423925990222, 9683380505941011022, 11792214146380123600, 2138916931256651587, 9454791491930588907, 6699898474641449860]) = blocks_empty.getD 15 [] := by decide +kernel
  unfold nkeccak nsponge
  rw [nlanes_chunk _ (by decide +kernel), a, b, c]

set_option maxRecDepth 100000 in
theorem block_empty_16 : nkeccak (digest_empty ++ ctrBytes 16) = blocks_empty.getD 16 [] := by
  have a : chunk8 ((digest_empty ++ ctrBytes 16) ++ Spec.pad 1 136 (List.length (α := Nat) (digest_empty ++ ctrBytes 16))) ++ List.replicate 8 0 = [4333579421379646149, 13836122230913597074, 4262519377828905189, 8116759062988257915, 1152921504606846976, 1, 0, 0, 0, 0, 0, 0, 0, 0, 0, 0, 9223372036854775808, 0, 0, 0, 0, 0, 0, 0, 0] := by decide +kernel
  have b : nF [4333579421379646149, 13836122230913597074, 4262519377828905189, 8116759062988257915, 1152921504606846976, 1, 0, 0, 0, 0, 0, 0, 0, 0, 0, 0, 9223372036854775808, 0, 0, 0, 0, 0, 0, 0, 0] = [3969138230575763103, 17226464576502088296, 13620637681009440578, 10336724934426159911, 1079559194978172876, 5363604833989461931, 5646149662155027470, 5970559567941858066, 12698685557648574424, 411529259661449633, 4987490846530240675, 4957980363992077709, 2565715806772003795, 2883416787836545471, 6272201352000484677, 10605168709764129937, 7978192933085904361, 17299770069933790434, 5275364210192485179, 4801811478013415708, 17917076341139398323, 647370369049565524, 11533765072648296239, 16817569384824811734, 2014710274258864299] := by decide +kernel
  have c : nbytes (List.take 4 [3969138230575763103, 17226464576502088296, 13620637681009440578, 10336724934426159911, 1079559194978172876, 5363604833989461931, 5646149662155027470, 5970559567941858066, 12698685557648574424, 411529259661449633, 4987490846530240675, 4957980363992077709, 2565715806772003795, 2883416787836545471, 6272201352000484677, 10605168709764129937, 7978192933085904361, 17299770069933790434, 5275364210192485179, 4801811478013415708, 17917076341139398323, 647370369049565524, 11533765072648296239, 16817569384824811734, 2014710274258864299]) = blocks_empty.getD 16 [] := by decide +kernel
  unfold nkeccak nsponge
  rw [nlanes_chunk _ (by decide +kernel), a, b, c]

set_option maxRecDepth 100000 in
theorem block_empty_17 : nkeccak (digest_empty ++ ctrBytes 17) = blocks_empty.getD 17 [] := by
  have a : chunk8 ((digest_empty ++ ctrBytes 17) ++ Spec.pad 1 136 (List.length (α := Nat) (digest_empty ++ ctrBytes 17))) ++ List.replicate 8 0 = [4333579421379646149, 13836122230913597074, 4262519377828905189, 8116759062988257915, 1224979098644774912, 1, 0, 0, 0, 0, 0, 0, 0, 0, 0, 0, 9223372036854775808, 0, 0, 0, 0, 0, 0, 0, 0] := by decide +kernel
  have b : nF [4333579421379646149, 13836122230913597074, 4262519377828905189, 8116759062988257915, 1224979098644774912, 1, 0, 0, 0, 0, 0, 0, 0, 0, 0, 0, 9223372036854775808, 0, 0, 0, 0, 0, 0, 0, 0] = [3490935139215706776, 8386214595327082711, 4633175280821856452, 10320436550952088841, 10703015328764028260, 7612895363725428565, 1998906839191721769, 8729290348998696505, 7789569533792643089, 7029461356352027285, 1713985460918601744, 10626576125767479402, 9522028784753887870, 810759251058689748, 15789846219537958102, 17093290828546626775, 13661716018713110691, 6404916766992559175, 14582244122324902110, 12417933595537359904, 16573666852882792846, 12421549844535725061, 8773088842463533774, 3479520150293862185, 17388008169557630953] := by decide +kernel
  have c : nbytes (List.take 4 [3490935139215706776, 8386214595327082711, 4633175280821856452, 10320436550952088841, 10703015328764028260, 7612895363725428565, 1998906839191721769, 8729290348998696505, 7789569533792643089, 7029461356352027285, 1713985460918601744, 10626576125767479402, 9522028784753887870, 810759251058689748, 15789846219537958102, 17093290828546626775, 13661716018713110691, 6404916766992559175, 14582244122324902110, 12417933595537359904, 16573666852882792846, 12421549844535725061, 8773088842463533774, 3479520150293862185, 17388008169557630953]) = blocks_empty.getD 17 [] := by decide +kernel
  unfold nkeccak nsponge
  rw [nlanes_chunk _ (by decide +kernel), a, b, c]

set_option maxRecDepth 100000 in
theorem block_empty_18 : nkeccak (digest_empty ++ ctrBytes 18) = blocks_empty.getD 18 [] := by
  have a : chunk8 ((digest_empty ++ ctrBytes 18) ++ Spec.pad 1 136 (List.length (α := Nat) (digest_empty ++ ctrBytes 18))) ++ List.replicate 8 0 = [4333579421379646149, 13836122230913597074, 4262519377828905189, 8116759062988257915, 1297036692682702848, 1, 0, 0, 0, 0, 0, 0, 0, 0, 0, 0, 9223372036854775808, 0, 0, 0, 0, 0, 0, 0, 0] := by decide +kernel
  have b : nF [4333579421379646149, 13836122230913597074, 4262519377828905189, 8116759062988257915, 1297036692682702848, 1, 0, 0, 0, 0, 0, 0, 0, 0, 0, 0, 9223372036854775808, 0, 0, 0, 0, 0, 0, 0, 0] = [6117184610789082979, 18172292702878892058, 10138890337988748409, 15165234026511215269, 4829081495143390868, 11896736239229745903, 7684475162130455942, 17318610256992003232, 18115130120579601406, 14679448614643336970, 12166586057887678372, 16607707532064833340, 16760859321452321088, 16519505727210194569, 4193914487888843812, 12689557960699477638, 6653505190911538409, 817468576020210107, 3098022186653669234, 11580011280662261813, 7991442408802301774, 9122633076882165341, 4515165488457031607, 11980457186740093965, 5643020307733792473] := by decide +kernel
  have c : nbytes (List.take 4 [6117184610789082979, 18172292702878892058, 10138890337988748409, 15165234026511215269, 4829081495143390868, 11896736239229745903, 7684475162130455942, 17318610256992003232, 18115130120579601406, 14679448614643336970, 12166586057887678372, 16607707532064833340, 16760859321452321088, 16519505727210194569, 4193914487888843812, 12689557960699477638, 6653505190911538409, 817468576020210107, 3098022186653669234, 11580011280662261813, 7991442408802301774, 9122633076882165341, 4515165488457031607, 11980457186740093965, 5643020307733792473]) = blocks_empty.getD 18 [] := by decide +kernel
  unfold nkeccak nsponge
  rw [nlanes_chunk _ (by decide +kernel), a, b, c]

set_option maxRecDepth 100000 in
theorem block_empty_19 : nkeccak (digest_empty ++ ctrBytes 19) = blocks_empty.getD 19 [] := by
  have a : chunk8 ((digest_empty ++ ctrBytes 19) ++ Spec.pad 1 136 (List.length (α := Nat) (digest_empty ++ ctrBytes 19))) ++ List.replicate 8 0 = [4333579421379646149, 13836122230913597074, 4262519377828905189, 8116759062988257915, 1369094286720630784, 1, 0, 0, 0, 0, 0, 0, 0, 0, 0, 0, 9223372036854775808, 0, 0, 0, 0, 0, 0, 0, 0] := by decide +kernel
  have b : nF [4333579421379646149, 13836122230913597074, 4262519377828905189, 8116759062988257915, 1369094286720630784, 1, 0, 0, 0, 0, 0, 0, 0, 0, 0, 0, 9223372036854775808, 0, 0, 0, 0, 0, 0, 0, 0] = [1760650726733561908, 3294171416120954708, 9011461681275662264, 6495493201633229287, 4164318898468405782, 1581078230547551141, 11984674453167522429, 7164981984190836901, 15691076715029512893, 10676072298649246127, 17254568911559459445, 12338315725354164949, 7834682014602744061, 15452629883224892788, 7611673938354457202, 1670066122600995169, 8945746447340134044, 2954677631963877395, 14137068493377560971, 16636675550681163458, 6574422112402976844, 14703345993970423455, 9309836082032107154, 16848552394256642852, 10550659417930915170] := by decide +kernel
  have c : nbytes (List.take 4 [1760650726733561908, 3294171416120954708, 9011461681275662264, 6495493201633229287, 4164318898468405782, 1581078230547551141, 11984674453167522429, 7164981984190836901, 15691076715029512893, 10676072298649246127, 17254568911559459445, 12338315725354164949, 7834682014602744061, 15452629883224892788, 7611673938354457202, 1670066122600995169, 8945746447340134044, 2954677631963877395, 14137068493377560971, 16636675550681163458, 6574422112402976844, 14703345993970423455, 9309836082032107154, 16848552394256642852, 10550659417930915170]) = blocks_empty.getD 19 [] := by decide +kernel
  unfold nkeccak nsponge
  rw [nlanes_chunk _ (by decide +kernel), a, b, c]

set_option maxRecDepth 100000 in
theorem block_empty_20 : nkeccak (digest_empty ++ ctrBytes 20) = blocks_empty.getD 20 [] := by
  have a : chunk8 ((digest_empty ++ ctrBytes 20) ++ Spec.pad 1 136 (List.length (α := Nat) (digest_empty ++ ctrBytes 20))) ++ List.replicate 8 0 = [4333579421379646149, 13836122230913597074, 4262519377828905189, 8116759062988257915, 1441151880758558720, 1, 0, 0, 0, 0, 0, 0, 0, 0, 0, 0, 9223372036854775808, 0, 0, 0, 0, 0, 0, 0, 0] := by decide +kernel
  have b : nF [4333579421379646149, 13836122230913597074, 4262519377828905189, 8116759062988257915, 1441151880758558720, 1, 0, 0, 0, 0, 0, 0, 0, 0, 0, 0, 9223372036854775808, 0, 0, 0, 0, 0, 0, 0, 0] = [2476440925761606558, 14506794008509328046, 7265182410494874192, 16718174986926357510, 3463809727584360280, 4870902806219298753, 6431982251232406983, 10335164998582507382, 5183865132699429297, 17852387914714866432, 3648660495965875498, 13578552915586337196, 13851915032192510173, 18394310465438787348, 13241089088971294242, 17413331909311233791, 11931264622660957997, 11806123011934119011, 4241422441733574935, 17475784908361863240, 7125194255609328139, 7721157898798696874, 16712098953934987585, 87706390475300934, 5560787171845112430] := by decide +kernel
  have c : nbytes (List.take 4 [2476440925761606558, 14506794008509328046, 7265182410494874192, 16718174986926357510, 3463809727584360280, 4870902806219298753, 6431982251232406983, 10335164998582507382, 5183865132699429297, 17852387914714866432, 3648660495965875498, 13578552915586337196, 13851915032192510173, 18394310465438787348, 13241089088971294242, 17413331909311233791, 11931264622660957997, 11806123011934119011, 4241422441733574935, 17475784908361863240, 7125194255609328139, 7721157898798696874, 16712098953934987585, 87706390475300934, 5560787171845112430]) = blocks_empty.getD 20 [] := by decide +kernel
  unfold nkeccak nsponge
  rw [nlanes_chunk _ (by decide +kernel), a, b, c]

set_option maxRecDepth 100000 in
theorem block_empty_21 : nkeccak (digest_empty ++ ctrBytes 21) = blocks_empty.getD 21 [] := by
  have a : chunk8 ((digest_empty ++ ctrBytes 21) ++ Spec.pad 1 136 (List.length (α := Nat) (digest_empty ++ ctrBytes 21))) ++ List.replicate 8 0 = [4333579421379646149, 13836122230913597074, 4262519377828905189, 8116759062988257915, 1513209474796486656, 1, 0, 0, 0, 0, 0, 0, 0, 0, 0, 0, 9223372036854775808, 0, 0, 0, 0, 0, 0, 0, 0] := by decide +kernel
  have b : nF [4333579421379646149, 13836122230913597074, 4262519377828905189, 8116759062988257915, 1513209474796486656, 1, 0, 0, 0, 0, 0, 0, 0, 0, 0, 0, 9223372036854775808, 0, 0, 0, 0, 0, 0, 0, 0] = [4070856826218348812, 6559868754597324717, 9448818983471839912, 8470193422542526163, 12545050399727165941, 8097211785024380369, 2530068618314835753, 3315340927230495909, 1792267703471590611, 1286517744003007300, 2501152865429556682, 5469829134923965418, 6159357546157458026, 11592401214099224415, 9778349552046305288, 8771385991902853359, 218018743800087641, 13512334285986084265, 11013083322260155582, 13080960882978244684, 333887420977725627, 16033724668159663587, 8245345758872922627, 13692401593963733360, 9039035753296399862] := by decide +kernel
  have c : nbytes (List.take 4 [4070856826218348812, 6559868754597324717, 9448818983471839912, 8470193422542526163, 12545050399727165941, 8097211785024380369, 2530068618314835753, 3315340927230495909, 1792267703471590611, 1286517744003007300, 2501152865429556682, 5469829134923965418, 6159357546157458026, 11592401214099224415, 9778349552046305288, 8771385991902853359, 218018743800087641, 13512334285986084265, 11013083322260155582, 13080960882978244684, 333887420977725627, 16033724668159663587, 8245345758872922627, 13692401593963733360, 9039035753296399862]) = blocks_empty.getD 21 [] := by decide +kernel
  unfold nkeccak nsponge
  rw [nlanes_chunk _ (by decide +kernel), a, b, c]

set_option maxRecDepth 100000 in
theorem block_empty_22 : nkeccak (digest_empty ++ ctrBytes 22) = blocks_empty.getD 22 [] := by
  have a : chunk8 ((digest_empty ++ ctrBytes 22) ++ Spec.pad 1 136 (List.length (α := Nat) (digest_empty ++ ctrBytes 22))) ++ List.replicate 8 0 = [4333579421379646149, 13836122230913597074, 4262519377828905189, 8116759062988257915, 1585267068834414592, 1, 0, 0, 0, 0, 0, 0, 0, 0, 0, 0, 9223372036854775808, 0, 0, 0, 0, 0, 0, 0, 0] := by decide +kernel
  have b : nF [4333579421379646149, 13836122230913597074, 4262519377828905189, 8116759062988257915, 1585267068834414592, 1, 0, 0, 0, 0, 0, 0, 0, 0, 0, 0, 9223372036854775808, 0, 0, 0, 0, 0, 0, 0, 0] = [11444205303300852536, 9034222392721010341, 5411236981700263893, 3409556827257969108, 2136235402475858633, 13295967723081398418, 13405841522185167098, 14047365486696202797, 1088318147640030464, 18173246468020587491, 15618523047251133178, 16635111895734898436, 17111426299897046397, 1869939881706852578, 13970585372858765066, 17611242445198581133, 10617535260456555729, 10715208708157550872, 16085969337582420557, 7605026747235331005, 11640878626091753419, 13959576832212675411, 10754680117375164525, 13807737397264686063, 12318071788064390572] := by decide +kernel
  have c : nbytes (List.take 4 [11444205303300852536, 9034222392721010341, 5411236981700263893, 3409556827257969108, 2136235402475858633, 13295967723081398418, 13405841522185167098, 14047365486696202797, 1088318147640030464, 18173246468020587491, 15618523047251133178, 16635111895734898436, 17111426299897046397, 1869939881706852578, 13970585372858765066, 17611242445198581133, 10617535260456555729, 10715208708157550872, 16085969337582420557, 7605026747235331005, 11640878626091753419, 13959576832212675411, 10754680117375164525, 13807737397264686063, 12318071788064390572]) = blocks_empty.getD 22 [] := by decide +kernel
  unfold nkeccak nsponge
  rw [nlanes_chunk _ (by decide +kernel), a, b, c]

set_option maxRecDepth 100000 in
theorem block_empty_23 : nkeccak (digest_empty ++ ctrBytes 23) = blocks_empty.getD 23 [] := by
  have a : chunk8 ((digest_empty ++ ctrBytes 23) ++ Spec.pad 1 136 (List.length (α := Nat) (digest_empty ++ ctrBytes 23))) ++ List.replicate 8 0 = [4333579421379646149, 13836122230913597074, 4262519377828905189, 8116759062988257915, 1657324662872342528, 1, 0, 0, 0, 0, 0, 0, 0, 0, 0, 0, 9223372036854775808, 0, 0, 0, 0, 0, 0, 0, 0] := by decide +kernel
  have b : nF [4333579421379646149, 13836122230913597074, 4262519377828905189, 8116759062988257915, 1657324662872342528, 1, 0, 0, 0, 0, 0, 0, 0, 0, 0, 0, 9223372036854775808, 0, 0, 0, 0, 0, 0, 0, 0] = [15645699687060495464, 17798344992924331194, 10980678456090785122, 3023997667430283996, 16598098762218164784, 851011247491549934, 7585001431171299445, 13356392292414103516, 16959540054524329177, 105597958325065789, 17236929008199698629, 6282115971208066509, 11730517057659963610, 13497092676539675518, 5257799800236926708, 9816291316777272428, 1313561702922910505, 9951267133382339115, 10036088183409079386, 6410192996573586505, 13426315318711059413, 349732533875169130, 300156328119582285, 7410779340927277982, 17493751651790317481] := by decide +kernel
  have c : nbytes (List.take 4 [15645699687060495464, 17798344992924331194, 10980678456090785122, 3023997667430283996, 16598098762218164784, 851011247491549934, 7585001431171299445, 13356392292414103516, 16959540054524329177, 105597958325065789, 17236929008199698629, 6282115971208066509, 11730517057659963610, 13497092676539675518, 5257799800236926708, 9816291316777272428, 1313561702922910505, 9951267133382339115, 10036088183409079386, 6410192996573586505, 13426315318711059413, 349732533875169130, 300156328119582285, 7410779340927277982, 17493751651790317481]) = blocks_empty.getD 23 [] := by decide +kernel
  unfold nkeccak nsponge
  rw [nlanes_chunk _ (by decide +kernel), a, b, c]

set_option maxRecDepth 100000 in
theorem block_empty_24 : nkeccak (digest_empty ++ ctrBytes 24) = blocks_empty.getD 24 [] := by
  have a : chunk8 ((digest_empty ++ ctrBytes 24) ++ Spec.pad 1 136 (List.length (α := Nat) (digest_empty ++ ctrBytes 24))) ++ List.replicate 8 0 = [4333579421379646149, 13836122230913597074, 4262519377828905189, 8116759062988257915, 1729382256910270464, 1, 0, 0, 0, 0, 0, 0, 0, 0, 0, 0, 9223372036854775808, 0, 0, 0, 0, 0, 0, 0, 0] := by decide +kernel
  have b : nF [4333579421379646149, 13836122230913597074, 4262519377828905189, 8116759062988257915, 1729382256910270464, 1, 0, 0, 0, 0, 0, 0, 0, 0, 0, 0, 9223372036854775808, 0, 0, 0, 0, 0, 0, 0, 0] = [15465062957400777310, 857226594220206542, 13241553995272494475, 3990579126191588374, 16357537478176877157, 4604868501650382747, 7851151275736187200, 14303148140598310407, 11750989179007614460, 5601310275707003591, 9843460351835299428, 10432993948428277902, 6733064540876012892, 964629414744000588, 11449562549561930040, 13552616556602267857, 16937659656970676338, 10715951951772868818, 11800399757150949639, 16389714925549381806, 10922497946357160051, 13886578478547414192, 8501845200962255260, 3416269696969423798, 1161467698592456619] := by decide +kernel
  have c : nbytes (List.take 4 [15465062957400777310, 857226594220206542, 13241553995272494475, 3990579126191588374, 16357537478176877157, 4604868501650382747, 7851151275736187200, 14303148140598310407, 11750989179007614460, 5601310275707003591, 9843460351835299428, 10432993948428277902, 6733064540876012892, 964629414744000588, 11449562549561930040, 13552616556602267857, 16937659656970676338, 10715951951772868818, 11800399757150949639, 16389714925549381806, 10922497946357160051, 13886578478547414192, 8501845200962255260, 3416269696969423798, 1161467698592456619]) = blocks_empty.getD 24 [] := by decide +kernel
  unfold nkeccak nsponge
  rw [nlanes_chunk _ (by decide +kernel), a, b, c]

set_option maxRecDepth 100000 in
theorem block_empty_25 : nkeccak (digest_empty ++ ctrBytes 25) = blocks_empty.getD 25 [] := by
  have a : chunk8 ((digest_empty ++ ctrBytes 25) ++ Spec.pad 1 136 (List.length (α := Nat) (digest_empty ++ ctrBytes 25))) ++ List.replicate 8 0 = [4333579421379646149, 13836122230913597074, 4262519377828905189, 8116759062988257915, 1801439850948198400, 1, 0, 0, 0, 0, 0, 0, 0, 0, 0, 0, 9223372036854775808, 0, 0, 0, 0, 0, 0, 0, 0] := by decide +kernel
  have b : nF [4333579421379646149, 13836122230913597074, 4262519377828905189, 8116759062988257915, 1801439850948198400, 1, 0, 0, 0, 0, 0, 0, 0, 0, 0, 0, 9223372036854775808, 0, 0, 0, 0, 0, 0, 0, 0] = [5864238037683016720, 5213138682580459389, 12052654010508734283, 7665233289377496435, 11886430804402074127, 2402173388229254033, 13967897143416883369, 1774953427056751006, 5633277026421303185, 3050518060723045211, 18419826410487555784, 5890885769178347131, 137125305348622898, 2220762503597612893, 17110978316812598938, 17550644978346932887, 8937444062025475738, 904191385553591220, 7354920131722055441, 17287052104449289199, 2732538626683761144, 5568910340981730771, 3809189823225901787, 3815784548264542510, 13525447886826620972] := by decide +kernel
  have c : nbytes (List.take 4 [5864238037683016720, 5213138682580459389, 12052654010508734283, 7665233289377496435, 11886430804402074127, 2402173388229254033, 13967897143416883369, 1774953427056751006, 5633277026421303185, 3050518060723045211, 18419826410487555784, 5890885769178347131, 137125305348622898, 2220762503597612893, 17110978316812598938, 17550644978346932887, 8937444062025475738, 904191385553591220, 7354920131722055441, 17287052104449289199, 2732538626683761144, 5568910340981730771, 3809189823225901787, 3815784548264542510, 13525447886826620972]) = blocks_empty.getD 25 [] := by decide +kernel
  unfold nkeccak nsponge
  rw [nlanes_chunk _ (by decide +kernel), a, b, c]

set_option maxRecDepth 100000 in
theorem block_empty_26 : nkeccak (digest_empty ++ ctrBytes 26) = blocks_empty.getD 26 [] := by
  have a : chunk8 ((digest_empty ++ ctrBytes 26) ++ Spec.pad 1 136 (List.length (α := Nat) (digest_empty ++ ctrBytes 26))) ++ List.replicate 8 0 = [4333579421379646149, 13836122230913597074, 4262519377828905189, 8116759062988257915, 1873497444986126336, 1, 0, 0, 0, 0, 0, 0, 0, 0, 0, 0, 9223372036854775808, 0, 0, 0, 0, 0, 0, 0, 0] := by decide +kernel
  have b : nF [4333579421379646149, 13836122230913597074, 4262519377828905189, 8116759062988257915, 1873497444986126336, 1, 0, 0, 0, 0, 0, 0, 0, 0, 0, 0, 9223372036854775808, 0, 0, 0, 0, 0, 0, 0, 0] = [15352145959524741415, 17821388338730289083, 8268209174837036651, 4522072365784814769, 5255061063111958840, 3571232490142941031, 12196091318869214728, 10948612436262185786, 5623084988880456375, 12273838785796849495, 541318110094226741, 17006867866869456240, 6628452285299748391, 572113094471697406, 6591126755139399585, 15073188304854409617, 13071703248354654653, 6621743645465387527, 17040505282983351530, 4403360436926177578, 16331402080360151955, 14177220561384274308, 11309625165909970953, 10077443651709724124, 405192341398207688] := by decide +kernel
  have c : nbytes (List.take 4 [15352145959524741415, 17821388338730289083, 8268209174837036651, 4522072365784814769, 5255061063111958840, 3571232490142941031, 12196091318869214728, 10948612436262185786, 5623084988880456375, 12273838785796849495, 541318110094226741, 17006867866869456240, 6628452285299748391, 572113094471697406, 6591126755139399585, 15073188304854409617, 13071703248354654653, 6621743645465387527, 17040505282983351530, 4403360436926177578, 16331402080360151955, 14177220561384274308, 11309625165909970953, 10077443651709724124, 405192341398207688]) = blocks_empty.getD 26 [] := by decide +kernel
  unfold nkeccak nsponge
  rw [nlanes_chunk _ (by decide +kernel), a, b, c]

set_option maxRecDepth 100000 in
theorem block_empty_27 : nkeccak (digest_empty ++ ctrBytes 27) = blocks_empty.getD 27 [] := by
  have a : chunk8 ((digest_empty ++ ctrBytes 27) ++ Spec.pad 1 136 (List.length (α := Nat) (digest_empty ++ ctrBytes 27))) ++ List.replicate 8 0 = [4333579421379646149, 13836122230913597074, 4262519377828905189, 8116759062988257915, 1945555039024054272, 1, 0, 0, 0, 0, 0, 0, 0, 0, 0, 0, 9223372036854775808, 0, 0, 0, 0, 0, 0, 0, 0] := by decide +kernel
  have b : nF [4333579421379646149, 13836122230913597074, 4262519377828905189, 8116759062988257915, 1945555039024054272, 1, 0, 0, 0, 0, 0, 0, 0, 0, 0, 0, 9223372036854775808, 0, 0, 0, 0, 0, 0, 0, 0] = [676577077978486139, 11166510967848669780, 10167117875497498829, 12463761468865181176, 1317173680825656572, 11949056040536668086, 11384656732475810218, 6260060283243749133, 6478788427518003401, 5016784984227479760, 400227248143476982, 12682422057076371208, 16219001785381374969, 5796654058725770670, 6961072360668080386, 8186151602921826012, 1083274031638932075, 11655166829496015238, 10748026899841790455, 9238091402981695073, 16368738405938091715, 13583800687630631288, 1091025725040215353, 276891590711087320, 4086424925323457084] := by decide +kernel
  have c : nbytes (List.take 4 [676577077978486139, 11166510967848669780, 10167117875497498829, 12463761468865181176, 1317173680825656572, 11949056040536668086, 11384656732475810218, 6260060283243749133, 6478788427518003401, 5016784984227479760, 400227248143476982, 12682422057076371208, 16219001785381374969, 5796654058725770670, 6961072360668080386, 8186151602921826012, 1083274031638932075, 11655166829496015238, 10748026899841790455, 9238091402981695073, 16368738405938091715, 13583800687630631288, 1091025725040215353, 276891590711087320, 4086424925323457084]) = blocks_empty.getD 27 [] := by decide +kernel
  unfold nkeccak nsponge
  rw [nlanes_chunk _ (by decide +kernel), a, b, c]

set_option maxRecDepth 100000 in
theorem block_empty_28 : nkeccak (digest_empty ++ ctrBytes 28) = blocks_empty.getD 28 [] := by
  have a : chunk8 ((digest_empty ++ ctrBytes 28) ++ Spec.pad 1 136 (List.length (α := Nat) (digest_empty ++ ctrBytes 28))) ++ List.replicate 8 0 = [4333579421379646149, 13836122230913597074, 4262519377828905189, 8116759062988257915, 2017612633061982208, 1, 0, 0, 0, 0, 0, 0, 0, 0, 0, 0, 9223372036854775808, 0, 0, 0, 0, 0, 0, 0, 0] := by decide +kernel
  have b : nF [4333579421379646149, 13836122230913597074, 4262519377828905189, 8116759062988257915, 2017612633061982208, 1, 0, 0, 0, 0, 0, 0, 0, 0, 0, 0, 9223372036854775808, 0, 0, 0, 0, 0, 0, 0, 0] = [16783731852743241322, 13227896812385904778, 15185256311315861613, 4144801388239193963, 5371144808459049230, 7892457278630900068, 14881036614584820468, 15365909924404096229, 4933545799095907735, 4271740179815417216, 1032816122330590851, 5465648269057722628, 352547119290687869, 12313173072282766095, 11440325057154148031, 3027626803235644988, 5247541511197421954, 485842702438397431, 13842053560889106002, 5514053466866518606, 11910112949229177233, 15916143692687957722, 448954226848181586, 2603792478386023326, 9289536141161320554] := by decide +kernel
  have c : nbytes (List.take 4 [16783731852743241322, 13227896812385904778, 15185256311315861613, 4144801388239193963, 5371144808459049230, 7892457278630900068, 14881036614584820468, 15365909924404096229, 4933545799095907735, 4271740179815417216, 1032816122330590851, 5465648269057722628, 352547119290687869, 12313173072282766095, 11440325057154148031, 3027626803235644988, 5247541511197421954, 485842702438397431, 13842053560889106002, 5514053466866518606, 11910112949229177233, 15916143692687957722, 448954226848181586, 2603792478386023326, 9289536141161320554]) = blocks_empty.getD 28 [] := by decide +kernel
  unfold nkeccak nsponge
  rw [nlanes_chunk _ (by decide +kernel), a, b, c]

set_option maxRecDepth 100000 in
theorem block_empty_29 : nkeccak (digest_empty ++ ctrBytes 29) = blocks_empty.getD 29 [] := by
  have a : chunk8 ((digest_empty ++ ctrBytes 29) ++ Spec.pad 1 136 (List.length (α := Nat) (digest_empty ++ ctrBytes 29))) ++ List.replicate 8 0 = [4333579421379646149, 13836122230913597074, 4262519377828905189, 8116759062988257915, 2089670227099910144, 1, 0, 0, 0, 0, 0, 0, 0, 0, 0, 0, 9223372036854775808, 0, 0, 0, 0, 0, 0, 0, 0] := by decide +kernel
  have b : nF [4333579421379646149, 13836122230913597074, 4262519377828905189, 8116759062988257915, 2089670227099910144, 1, 0, 0, 0, 0, 0, 0, 0, 0, 0, 0, 9223372036854775808, 0, 0, 0, 0, 0, 0, 0, 0] = [1235962756739786984, 12657137876397001311, 13386924082082062149, 17752840659347132411, 5180511788870112660, 5935870868121005328, 14131635267073973959, 16762876625387779196, 18420106261265233561, 12938395454215855659, 10634250437106982178, 4738850068546710174, 3464857914598492289, 10254253759194855089, 9940277386921685798, 17142217985952407246, 2195070612661562014, 6810063511624256125, 14592165471167381683, 11414902950448072522, 2586040059346897456, 7072372405407474715, 1032887705378180074, 12243197780505645591, 12958283631005471979] := by decide +kernel
  have c : nbytes (List.take 4 [1235962756739786984, 12657137876397001311, 13386924082082062149, 17752840659347132411, 5180511788870112660, 5935870868121005328, 14131635267073973959, 16762876625387779196, 18420106261265233561, 12938395454215855659, 10634250437106982178, 4738850068546710174, 3464857914598492289, 10254253759194855089, 9940277386921685798, 17142217985952407246, 2195070612661562014, 6810063511624256125, 14592165471167381683, 11414902950448072522, 2586040059346897456, 7072372405407474715, 1032887705378180074, 12243197780505645591, 12958283631005471979]) = blocks_empty.getD 29 [] := by decide +kernel
  unfold nkeccak nsponge
  rw [nlanes_chunk _ (by decide +kernel), a, b, c]

set_option maxRecDepth 100000 in
theorem block_empty_30 : nkeccak (digest_empty ++ ctrBytes 30) = blocks_empty.getD 30 [] := by
  have a : chunk8 ((digest_empty ++ ctrBytes 30) ++ Spec.pad 1 136 (List.length (α := Nat) (digest_empty ++ ctrBytes 30))) ++ List.replicate 8 0 = [4333579421379646149, 13836122230913597074, 4262519377828905189, 8116759062988257915, 2161727821137838080, 1, 0, 0, 0, 0, 0, 0, 0, 0, 0, 0, 9223372036854775808, 0, 0, 0, 0, 0, 0, 0, 0] := by decide +kernel
  have b : nF [4333579421379646149, 13836122230913597074, 4262519377828905189, 8116759062988257915, 2161727821137838080, 1, 0, 0, 0, 0, 0, 0, 0, 0, 0, 0, 9223372036854775808, 0, 0, 0, 0, 0, 0, 0, 0] = [6148294308758848303, 4484186838336727527, 5997396165603927068, 4600959090220113794, 14562034288663020462, 15859101371261181448, 3014431253462594010, 7612169766738138924, 7073165514204654406, 13778738007126878063, 1098005850193916894, 10903637278603011736, 17125192065227455411, 6405581031042593942, 8936075831722328671, 3159462590881219725, 1453077214686006892, 4444357593207495244, 7260453808326535487, 8477354979436752977, 2516253460639893253, 10910310230098235635, 8365081814748098441, 6630665481613248979, 13633793299643320492] := by decide +kernel
  have c : nbytes (List.take 4 [6148294308758848303, 4484186838336727527, 5997396165603927068, 4600959090220113794, 14562034288663020462, 15859101371261181448, 3014431253462594010, 7612169766738138924, 7073165514204654406, 13778738007126878063, 1098005850193916894, 10903637278603011736, 17125192065227455411, 6405581031042593942, 8936075831722328671, 3159462590881219725, 1453077214686006892, 4444357593207495244, 7260453808326535487, 8477354979436752977, 2516253460639893253, 10910310230098235635, 8365081814748098441, 6630665481613248979, 13633793299643320492]) = blocks_empty.getD 30 [] := by decide +kernel
  unfold nkeccak nsponge
  rw [nlanes_chunk _ (by decide +kernel), a, b, c]

set_option maxRecDepth 100000 in
theorem block_empty_31 : nkeccak (digest_empty ++ ctrBytes 31) = blocks_empty.getD 31 [] := by
  have a : chunk8 ((digest_empty ++ ctrBytes 31) ++ Spec.pad 1 136 (List.length (α := Nat) (digest_empty ++ ctrBytes 31))) ++ List.replicate 8 0 = [4333579421379646149, 13836122230913597074, 4262519377828905189, 8116759062988257915, 2233785415175766016, 1, 0, 0, 0, 0, 0, 0, 0, 0, 0, 0, 9223372036854775808, 0, 0, 0, 0, 0, 0, 0, 0] := by decide +kernel
  have b : nF [4333579421379646149, 13836122230913597074, 4262519377828905189, 8116759062988257915, 2233785415175766016, 1, 0, 0, 0, 0, 0, 0, 0, 0, 0, 0, 9223372036854775808, 0, 0, 0, 0, 0, 0, 0, 0] = [15627228836865571030, 4789018243055767646, 3675896365982787508, 853761770064038228, 6664496113744755171, 10926038405309414546, 3927382331782276371, 15064995474362762138, 9549789786289737340, 10478966351193400484, 3989373912882933053, 16340770962636262273, 9840120004287747215, 17213135579397447849, 15033153383368460190, 907555886636666688, 16225717207223948483, 5898729288382980078, 7640674589246069484, 276368137287948039, 17852894832537938509, 14870870217614576817, 17315722400375793949, 16039235350094182929, 18033549328434206247] := by decide +kernel
  have c : nbytes (List.take 4 [15627228836865571030, 4789018243055767646, 3675896365982787508, 853761770064038228, 6664496113744755171, 10926038405309414546, 3927382331782276371, 15064995474362762138, 9549789786289737340, 10478966351193400484, 3989373912882933053, 16340770962636262273, 9840120004287747215, 17213135579397447849, 15033153383368460190, 907555886636666688, 16225717207223948483, 5898729288382980078, 7640674589246069484, 276368137287948039, 17852894832537938509, 14870870217614576817, 17315722400375793949, 16039235350094182929, 18033549328434206247]) = blocks_empty.getD 31 [] := by decide +kernel
  unfold nkeccak nsponge
  rw [nlanes_chunk _ (by decide +kernel), a, b, c]

set_option maxRecDepth 100000 in
theorem block_empty_32 : nkeccak (digest_empty ++ ctrBytes 32) = blocks_empty.getD 32 [] := by
  have a : chunk8 ((digest_empty ++ ctrBytes 32) ++ Spec.pad 1 136 (List.length (α := Nat) (digest_empty ++ ctrBytes 32))) ++ List.replicate 8 0 = [4333579421379646149, 13836122230913597074, 4262519377828905189, 8116759062988257915, 2305843009213693952, 1, 0, 0, 0, 0, 0, 0, 0, 0, 0, 0, 9223372036854775808, 0, 0, 0, 0, 0, 0, 0, 0] := by decide +kernel
  have b : nF [4333579421379646149, 13836122230913597074, 4262519377828905189, 8116759062988257915, 2305843009213693952, 1, 0, 0, 0, 0, 0, 0, 0, 0, 0, 0, 9223372036854775808, 0, 0, 0, 0, 0, 0, 0, 0] = [15036122454643221833, 8084688710154894, 15845530922314003318, 5021921056817313246, 10027203083592061529, 12664106805987464363, 13090311689707515915, 16608615964767286834, 11766497998313640111, 18125500969094015239, 5776783545748694702, 17496243754395496784, 6087887964634150965, 5109964671397520306, 11691144834057569279, 6773989475059037206, 3968396903761518295, 13314646045099906289, 6335948257551254062, 11901659931958075036, 1466441691848965303, 14291049741815107149, 7873111653510439117, 16664411377403000112, 6009180707166101147] := by decide +kernel
  have c : nbytes (List.take 4 [15036122454643221833, 8084688710154894, 15845530922314003318, 5021921056817313246, 10027203083592061529, 12664106805987464363, 13090311689707515915, 16608615964767286834, 11766497998313640111, 18125500969094015239, 5776783545748694702, 17496243754395496784, 6087887964634150965, 5109964671397520306, 11691144834057569279, 6773989475059037206, 3968396903761518295, 13314646045099906289, 6335948257551254062, 11901659931958075036, 1466441691848965303, 14291049741815107149, 7873111653510439117, 16664411377403000112, 6009180707166101147]) = blocks_empty.getD 32 [] := by decide +kernel
  unfold nkeccak nsponge
  rw [nlanes_chunk _ (by decide +kernel), a, b, c]

set_option maxRecDepth 100000 in
theorem block_empty_33 : nkeccak (digest_empty ++ ctrBytes 33) = blocks_empty.getD 33 [] := by
  have a : chunk8 ((digest_empty ++ ctrBytes 33) ++ Spec.pad 1 136 (List.length (α := Nat) (digest_empty ++ ctrBytes 33))) ++ List.replicate 8 0 = [4333579421379646149, 13836122230913597074, 4262519377828905189, 8116759062988257915, 2377900603251621888, 1, 0, 0, 0, 0, 0, 0, 0, 0, 0, 0, 9223372036854775808, 0, 0, 0, 0, 0, 0, 0, 0] := by decide +kernel
  have b : nF [4333579421379646149, 13836122230913597074, 4262519377828905189, 8116759062988257915, 2377900603251621888, 1, 0, 0, 0, 0, 0, 0, 0, 0, 0, 0, 9223372036854775808, 0, 0, 0, 0, 0, 0, 0, 0] = [13829689924913883264, 6696621703923147119, 6226526538105925832, 15440221056926888286, 8031409073032054346, 5067701198597593883, 13997364145810398950, 13114182474502861253, 11795136641715605767, 11294736128257783095, 15662132346665113614, 534834858762826772, 12227366708189089386, 11479750611569254566, 10373224378720028331, 6516882902916622926, 2176944031914151700, 10600648269403901708, 6571520168660006804, 10628197372770508065, 4781967722191685636, 10954342914917837818, 11348473364408937032, 10043218187117340138, 3497851458561418821] := by decide +kernel
  have c : nbytes (List.take 4 [13829689924913883264, 6696621703923147119, 6226526538105925832, 15440221056926888286, 8031409073032054346, 5067701198597593883, 13997364145810398950, 13114182474502861253, 11795136641715605767, 11294736128257783095, 15662132346665113614, 534834858762826772, 12227366708189089386, 11479750611569254566, 10373224378720028331, 6516882902916622926, 2176944031914151700, 10600648269403901708, 6571520168660006804, 10628197372770508065, 4781967722191685636, 10954342914917837818, 11348473364408937032, 10043218187117340138, 3497851458561418821]) = blocks_empty.getD 33 [] := by decide +kernel
  unfold nkeccak nsponge
  rw [nlanes_chunk _ (by decide +kernel), a, b, c]

set_option maxRecDepth 100000 in
theorem count_empty : (accepted (fun k => (blocks_empty.getD (k / 32) []).getD (k % 32) 0) 539).length = 512 := by decide +kernel

/-- The empty string has a point. -/
theorem point_empty : ∃ hm, IsPoint (streamByte Keccak256 []) 512 hm := by
  refine point_of_blocks _ digest_empty blocks_empty 539 (by decide) digest_empty_eq rfl ?_ (by decide) count_empty
  intro i hi
  replace hi : i < 34 := hi
  interval_cases i
  · exact block_empty_0
  · exact block_empty_1
  · exact block_empty_2
  · exact block_empty_3
  · exact block_empty_4
  · exact block_empty_5
  · exact block_empty_6
  · exact block_empty_7
  · exact block_empty_8
  · exact block_empty_9
  · exact block_empty_10
  · exact block_empty_11
  · exact block_empty_12
  · exact block_empty_13
  · exact block_empty_14
  · exact block_empty_15
  · exact block_empty_16
  · exact block_empty_17
  · exact block_empty_18
  · exact block_empty_19
  · exact block_empty_20
  · exact block_empty_21
  · exact block_empty_22
  · exact block_empty_23
  · exact block_empty_24
  · exact block_empty_25
  · exact block_empty_26
  · exact block_empty_27
  · exact block_empty_28
  · exact block_empty_29
  · exact block_empty_30
  · exact block_empty_31
  · exact block_empty_32
  · exact block_empty_33

def digest_short : Bytes := [26, 174, 11, 255, 171, 106, 202, 151, 241, 81, 59, 125, 179, 84, 133, 96, 203, 172, 105, 66, 164, 123, 25, 226, 91, 212, 70, 153, 49, 86, 236, 241]

/-- The first blocks of the stream. -/
def blocks_short : List Bytes := [[51, 35, 155, 183, 81, 221, 207, 104, 33, 198, 35, 68, 122, 190, 236, 22, 94, 69, 50, 195, 238, 235, 71, 116, 19, 133, 237, 96, 1, 20, 111, 43],
  [240, 198, 17, 188, 64, 154, 102, 249, 153, 186, 199, 55, 127, 166, 121, 134, 224, 196, 57, 95, 57, 157, 153, 63, 71, 0, 46, 219, 127, 186, 118, 47],
  [114, 84, 106, 226, 109, 113, 192, 74, 76, 126, 147, 30, 247, 183, 178, 90, 56, 10, 181, 127, 116, 34, 229, 167, 72, 184, 227, 36, 224, 153, 32, 126],
  [111, 199, 56, 132, 110, 175, 137, 84, 78, 157, 31, 188, 31, 225, 170, 51, 160, 255, 170, 181, 188, 131, 86, 131, 166, 37, 2, 68, 157, 185, 216, 50],
  [167, 167, 24, 91, 104, 204, 182, 19, 60, 251, 230, 31, 255, 184, 141, 223, 19, 152, 171, 215, 31, 130, 142, 93, 9, 157, 65, 102, 192, 25, 221, 139],
  [162, 108, 140, 154, 190, 240, 192, 63, 184, 187, 218, 143, 123, 231, 93, 51, 198, 98, 204, 184, 239, 31, 11, 254, 95, 61, 51, 241, 154, 66, 60, 154],
  [151, 237, 235, 178, 236, 234, 213, 94, 199, 36, 93, 229, 52, 176, 32, 38, 41, 58, 6, 101, 79, 119, 207, 92, 146, 196, 154, 188, 186, 8, 218, 131],
  [4, 110, 181, 93, 103, 153, 109, 0, 81, 154, 37, 238, 186, 156, 153, 199, 76, 236, 28, 156, 193, 252, 185, 175, 103, 220, 54, 146, 11, 155, 42, 79],
  [231, 139, 75, 239, 228, 95, 165, 72, 142, 100, 41, 93, 204, 237, 163, 114, 40, 25, 108, 9, 152, 237, 248, 153, 34, 52, 95, 218, 145, 133, 79, 242],
  [92, 45, 126, 115, 49, 12, 64, 235, 56, 128, 96, 11, 112, 53, 203, 213, 41, 32, 130, 28, 144, 85, 100, 191, 103, 231, 3, 218, 197, 147, 37, 15],
  [174, 81, 24, 119, 53, 23, 115, 58, 195, 154, 53, 37, 68, 25, 209, 95, 124, 161, 107, 96, 54, 83, 93, 181, 179, 17, 254, 42, 47, 89, 160, 216],
  [177, 234, 153, 155, 78, 120, 181, 94, 55, 39, 127, 238, 188, 59, 192, 42, 75, 242, 194, 246, 56, 251, 106, 76, 220, 12, 224, 76, 143, 104, 191, 251],
  [116, 156, 18, 69, 36, 104, 239, 200, 52, 130, 181, 68, 159, 169, 176, 184, 143, 192, 51, 125, 199, 136, 55, 109, 206, 172, 152, 86, 118, 27, 192, 79],
  [154, 244, 242, 1, 201, 90, 107, 6, 7, 55, 59, 4, 236, 214, 89, 11, 78, 15, 4, 1, 136, 230, 165, 208, 14, 141, 212, 197, 70, 118, 214, 146],
  [155, 88, 34, 117, 25, 40, 142, 58, 132, 142, 231, 229, 10, 57, 60, 61, 97, 31, 106, 237, 253, 62, 242, 125, 128, 246, 39, 182, 201, 253, 108, 207],
  [9, 126, 44, 42, 214, 39, 213, 44, 208, 248, 210, 19, 157, 27, 47, 73, 218, 179, 169, 212, 157, 150, 230, 241, 52, 26, 137, 123, 80, 121, 113, 59],
  [129, 174, 155, 211, 156, 4, 193, 207, 32, 23, 153, 73, 194, 247, 251, 119, 126, 36, 128, 29, 118, 89, 247, 198, 98, 80, 75, 29, 149, 0, 54, 99],
  [20, 80, 21, 13, 138, 143, 246, 124, 111, 125, 199, 49, 110, 74, 3, 175, 215, 109, 5, 44, 215, 79, 25, 168, 83, 145, 81, 40, 63, 168, 73, 154],
  [57, 236, 38, 179, 32, 36, 144, 26, 222, 144, 65, 234, 252, 147, 202, 190, 208, 182, 204, 111, 71, 8, 159, 0, 56, 151, 188, 232, 62, 243, 163, 101],
  [222, 214, 207, 121, 94, 161, 24, 34, 143, 105, 254, 246, 178, 7, 231, 46, 79, 207, 129, 206, 183, 145, 228, 77, 134, 128, 154, 78, 40, 6, 173, 26],
  [222, 160, 126, 64, 27, 156, 136, 38, 166, 110, 219, 8, 201, 179, 38, 157, 6, 119, 146, 169, 211, 109, 81, 158, 66, 29, 68, 209, 204, 199, 84, 198],
  [116, 213, 40, 102, 209, 167, 208, 144, 42, 225, 141, 57, 143, 129, 249, 220, 169, 68, 241, 164, 233, 122, 150, 170, 87, 58, 32, 101, 166, 43, 47, 93],
  [70, 243, 120, 0, 178, 167, 56, 91, 76, 16, 9, 162, 96, 95, 35, 186, 127, 153, 119, 88, 56, 123, 149, 107, 94, 197, 225, 62, 94, 252, 211, 59],
  [34, 19, 18, 161, 250, 152, 152, 188, 62, 98, 10, 199, 69, 185, 104, 83, 78, 234, 212, 236, 207, 168, 144, 212, 36, 233, 162, 99, 14, 125, 126, 159],
  [76, 135, 94, 129, 46, 17, 220, 149, 32, 239, 191, 200, 9, 229, 128, 254, 56, 84, 246, 53, 155, 194, 173, 223, 108, 65, 134, 123, 95, 156, 82, 105],
  [168, 173, 100, 230, 151, 162, 148, 38, 254, 76, 184, 40, 66, 42, 108, 58, 251, 15, 240, 97, 32, 25, 214, 213, 209, 61, 42, 37, 40, 230, 163, 82],
  [117, 198, 29, 86, 126, 82, 104, 114, 228, 164, 35, 131, 7, 201, 51, 48, 30, 33, 211, 29, 137, 121, 106, 25, 234, 126, 214, 38, 161, 147, 79, 96],
  [128, 29, 98, 87, 221, 158, 77, 123, 27, 208, 236, 184, 219, 204, 82, 115, 19, 162, 43, 8, 163, 193, 8, 27, 133, 164, 43, 166, 97, 82, 140, 151],
  [137, 17, 229, 39, 122, 34, 124, 221, 170, 180, 58, 102, 214, 91, 100, 209, 234, 158, 126, 247, 235, 182, 203, 87, 216, 149, 39, 37, 39, 238, 112, 177],
  [137, 222, 198, 56, 232, 43, 3, 171, 193, 160, 16, 105, 208, 171, 193, 117, 136, 183, 123, 117, 236, 78, 179, 9, 10, 82, 219, 10, 127, 223, 225, 93],
  [162, 183, 176, 96, 62, 113, 160, 225, 33, 223, 143, 96, 74, 131, 113, 63, 120, 17, 254, 110, 92, 118, 105, 18, 150, 25, 221, 103, 174, 97, 153, 131],
  [251, 52, 242, 39, 105, 174, 141, 6, 101, 64, 148, 41, 200, 40, 107, 236, 114, 50, 43, 8, 128, 197, 224, 173, 254, 200, 48, 242, 122, 198, 243, 162],
  [197, 153, 231, 186, 183, 124, 111, 103, 208, 89, 125, 119, 170, 183, 236, 217, 198, 212, 191, 88, 82, 218, 149, 144, 46, 150, 73, 117, 60, 218, 94, 35],
  [180, 52, 30, 161, 124, 173, 212, 81, 210, 244, 217, 155, 241, 169, 130, 17, 49, 62, 180, 28, 94, 119, 250, 150, 71, 35, 188, 34, 151, 103, 140, 190]]

set_option maxRecDepth 100000 in
theorem digest_short_eq : nkeccak [5, 5, 5, 5, 5, 5, 5, 5, 5, 5, 5, 5, 5, 5, 5, 5, 5, 5, 5, 5, 5, 5, 5, 5, 5, 5, 5, 5, 5, 5, 5, 5, 5, 5, 5, 5, 5, 5, 5, 5, 6] = digest_short := by
  have a : chunk8 ([5, 5, 5, 5, 5, 5, 5, 5, 5, 5, 5, 5, 5, 5, 5, 5, 5, 5, 5, 5, 5, 5, 5, 5, 5, 5, 5, 5, 5, 5, 5, 5, 5, 5, 5, 5, 5, 5, 5, 5, 6] ++ Spec.pad 1 136 (List.length (α := Nat) [5, 5, 5, 5, 5, 5, 5, 5, 5, 5, 5, 5, 5, 5, 5, 5, 5, 5, 5, 5, 5, 5, 5, 5, 5, 5, 5, 5, 5, 5, 5, 5, 5, 5, 5, 5, 5, 5, 5, 5, 6])) ++ List.replicate 8 0 = [361700864190383365, 361700864190383365, 361700864190383365, 361700864190383365, 361700864190383365, 262, 0, 0, 0, 0, 0, 0, 0, 0, 0, 0, 9223372036854775808, 0, 0, 0, 0, 0, 0, 0, 0] := by decide +kernel
  have b : nF [361700864190383365, 361700864190383365, 361700864190383365, 361700864190383365, 361700864190383365, 262, 0, 0, 0, 0, 0, 0, 0, 0, 0, 0, 9223372036854775808, 0, 0, 0, 0, 0, 0, 0, 0] = [10937671931973578266, 6955058329420517873, 16292189072408554699, 17432403028669289563, 9738721977649845460, 5250583944340981038, 10107384342284970988, 13682685439662792256, 10394822816718377198, 2013259479588359256, 12684779345970354119, 16759412396763132549, 6241046853630258471, 11151464402787191268, 3298857528625621021, 4907035339038076252, 10311017276330359952, 17245104658092618256, 15830316742974603657, 12168940211681958320, 125629072602154589, 7604185774788244854, 6104400751958605661, 17220175127062581626, 4592348711907177890] := by decide +kernel
  have c : nbytes (List.take 4 [10937671931973578266, 6955058329420517873, 16292189072408554699, 17432403028669289563, 9738721977649845460, 5250583944340981038, 10107384342284970988, 13682685439662792256, 10394822816718377198, 2013259479588359256, 12684779345970354119, 16759412396763132549, 6241046853630258471, 11151464402787191268, 3298857528625621021, 4907035339038076252, 10311017276330359952, 17245104658092618256, 15830316742974603657, 12168940211681958320, 125629072602154589, 7604185774788244854, 6104400751958605661, 17220175127062581626, 4592348711907177890]) = digest_short := by decide +kernel
  unfold nkeccak nsponge
  rw [nlanes_chunk _ (by decide +kernel), a, b, c]

set_option maxRecDepth 100000 in
theorem block_short_0 : nkeccak (digest_short ++ ctrBytes 0) = blocks_short.getD 0 [] := by
  have a : chunk8 ((digest_short ++ ctrBytes 0) ++ Spec.pad 1 136 (List.length (α := Nat) (digest_short ++ ctrBytes 0))) ++ List.replicate 8 0 = [10937671931973578266, 6955058329420517873, 16292189072408554699, 17432403028669289563, 0, 1, 0, 0, 0, 0, 0, 0, 0, 0, 0, 0, 9223372036854775808, 0, 0, 0, 0, 0, 0, 0, 0] := by decide +kernel
  have b : nF [10937671931973578266, 6955058329420517873, 16292189072408554699, 17432403028669289563, 0, 1, 0, 0, 0, 0, 0, 0, 0, 0, 0, 0, 9223372036854775808, 0, 0, 0, 0, 0, 0, 0, 0] = [7552498443166098227, 1651904595676612129, 8378925042455692638, 3129742262199485715, 9254405182139659538, 120075202643607570, 7259307713286938338, 4496090799589666230, 4696829915974334842, 11981244858028379391, 14821423312357200375, 16404106633981672081, 9281173204182960095, 15333790508677655434, 1083154243271850702, 16301063467581929671, 18288656088282339685, 7321229232466986508, 9647707459009001353, 12790246636086630326, 9572093884135553651, 236757382489175342, 5196653818825854963, 17198563142149690906, 14430550567945582129] := by decide +kernel
  have c : nbytes (List.take 4 [7552498443166098227, 1651904595676612129, 8378925042455692638, 3129742262199485715, 9254405182139659538, 120075202643607570, 7259307713286938338, 4496090799589666230, 4696829915974334842, 11981244858028379391, 14821423312357200375, 16404106633981672081, 9281173204182960095, 15333790508677655434, 1083154243271850702, 16301063467581929671, 18288656088282339685, 7321229232466986508, 9647707459009001353, 12790246636086630326, 9572093884135553651, 236757382489175342, 5196653818825854963, 17198563142149690906, 14430550567945582129]) = blocks_short.getD 0 [] := by decide +kernel
  unfold nkeccak nsponge
  rw [nlanes_chunk _ (by decide +kernel), a, b, c]

set_option maxRecDepth 100000 in
theorem block_short_1 : nkeccak (digest_short ++ ctrBytes 1) = blocks_short.getD 1 [] := by
  have a : chunk8 ((digest_short ++ ctrBytes 1) ++ Spec.pad 1 136 (List.length (α := Nat) (digest_short ++ ctrBytes 1))) ++ List.replicate 8 0 = [10937671931973578266, 6955058329420517873, 16292189072408554699, 17432403028669289563, 72057594037927936, 1, 0, 0, 0, 0, 0, 0, 0, 0, 0, 0, 9223372036854775808, 0, 0, 0, 0, 0, 0, 0, 0] := by decide +kernel
  have b : nF [10937671931973578266, 6955058329420517873, 16292189072408554699, 17432403028669289563, 72057594037927936, 1, 0, 0, 0, 0, 0, 0, 0, 0, 0, 0, 9223372036854775808, 0, 0, 0, 0, 0, 0, 0, 0] = [17971220965892409072, 9689959138591226521, 4582866965562508512, 3420126025335308359, 3394076975188691598, 2398629725300732312, 18037394659040311321, 1425841766226959298, 5842798311454121213, 16701211891233709671, 1797277183733230334, 347369741952646507, 6922697354283179187, 8448561814044284015, 12613942292545093943, 10079867168198150183, 12825532837851559960, 9806755542091774444, 14432398848280320106, 11065095851231409004, 6421397938954070724, 9137322341473967658, 1465985920973688223, 12214355910558877502, 6973112657932715005] := by decide +kernel
  have c : nbytes (List.take 4 [17971220965892409072, 9689959138591226521, 4582866965562508512, 3420126025335308359, 3394076975188691598, 2398629725300732312, 18037394659040311321, 1425841766226959298, 5842798311454121213, 16701211891233709671, 1797277183733230334, 347369741952646507, 6922697354283179187, 8448561814044284015, 12613942292545093943, 10079867168198150183, 12825532837851559960, 9806755542091774444, 14432398848280320106, 11065095851231409004, 6421397938954070724, 9137322341473967658, 1465985920973688223, 12214355910558877502, 6973112657932715005]) = blocks_short.getD 1 [] := by decide +kernel
  unfold nkeccak nsponge
  rw [nlanes_chunk _ (by decide +kernel), a, b, c]

set_option maxRecDepth 100000 in
theorem block_short_2 : nkeccak (digest_short ++ ctrBytes 2) = blocks_short.getD 2 [] := by
  have a : chunk8 ((digest_short ++ ctrBytes 2) ++ Spec.pad 1 136 (List.length (α := Nat) (digest_short ++ ctrBytes 2))) ++ List.replicate 8 0 = [10937671931973578266, 6955058329420517873, 16292189072408554699, 17432403028669289563, 144115188075855872, 1, 0, 0, 0, 0, 0, 0, 0, 0, 0, 0, 9223372036854775808, 0, 0, 0, 0, 0, 0, 0, 0] := by decide +kernel
  have b : nF [10937671931973578266, 6955058329420517873, 16292189072408554699, 17432403028669289563, 144115188075855872, 1, 0, 0, 0, 0, 0, 0, 0, 0, 0, 0, 9223372036854775808, 0, 0, 0, 0, 0, 0, 0, 0] = [5386429871099106418, 6535488281265798732, 12098113857754827320, 9088433236004288584, 11815666189068835247, 442464166161867413, 17985303719334564199, 12264251393951851996, 17828883042521570155, 15282683594334795828, 8371585206507450435, 18139441462349161947, 17173900704518159693, 15937457338983538469, 13239251606108999712, 1181640487839854840, 11741343016099125110, 1503115463550214349, 3826514765550252151, 15963794070509138142, 17030306552692147888, 3562355030432164979, 4178862623374951955, 1304981335033788934, 4434715216550604676] := by decide +kernel
  have c : nbytes (List.take 4 [5386429871099106418, 6535488281265798732, 12098113857754827320, 9088433236004288584, 11815666189068835247, 442464166161867413, 17985303719334564199, 12264251393951851996, 17828883042521570155, 15282683594334795828, 8371585206507450435, 18139441462349161947, 17173900704518159693, 15937457338983538469, 13239251606108999712, 1181640487839854840, 11741343016099125110, 1503115463550214349, 3826514765550252151, 15963794070509138142, 17030306552692147888, 3562355030432164979, 4178862623374951955, 1304981335033788934, 4434715216550604676]) = blocks_short.getD 2 [] := by decide +kernel
  unfold nkeccak nsponge
  rw [nlanes_chunk _ (by decide +kernel), a, b, c]

set_option maxRecDepth 100000 in
theorem block_short_3 : nkeccak (digest_short ++ ctrBytes 3) = blocks_short.getD 3 [] := by
  have a : chunk8 ((digest_short ++ ctrBytes 3) ++ Spec.pad 1 136 (List.length (α := Nat) (digest_short ++ ctrBytes 3))) ++ List.replicate 8 0 = [10937671931973578266, 6955058329420517873, 16292189072408554699, 17432403028669289563, 216172782113783808, 1, 0, 0, 0, 0, 0, 0, 0, 0, 0, 0, 9223372036854775808, 0, 0, 0, 0, 0, 0, 0, 0] := by decide +kernel
  have b : nF [10937671931973578266, 6955058329420517873, 16292189072408554699, 17432403028669289563, 216172782113783808, 1, 0, 0, 0, 0, 0, 0, 0, 0, 0, 0, 9223372036854775808, 0, 0, 0, 0, 0, 0, 0, 0] = [6091592860194883439, 3723035568391560526, 9463896513490648992, 3663882381967893926, 3309374211810540743, 10547083727947706493, 9969076289822035887, 10877970498807938653, 8393170162317625659, 16156313775383856806, 10505658299294142206, 8499199990048592229, 16338319700544922388, 2065669896471660638, 8721512438455723716, 9336759382734633786, 10166413728526553064, 6773576537602007034, 16014965192827848680, 4573740324845899747, 4781174158946033775, 3775192353692270345, 10233004034486104775, 399949040061058560, 3514055698106797116] := by decide +kernel
  have c : nbytes (List.take 4 [6091592860194883439, 3723035568391560526, 9463896513490648992, 3663882381967893926, 3309374211810540743, 10547083727947706493, 9969076289822035887, 10877970498807938653, 8393170162317625659, 16156313775383856806, 10505658299294142206, 8499199990048592229, 16338319700544922388, 2065669896471660638, 8721512438455723716, 9336759382734633786, 10166413728526553064, 6773576537602007034, 16014965192827848680, 4573740324845899747, 4781174158946033775, 3775192353692270345, 10233004034486104775, 399949040061058560, 3514055698106797116]) = blocks_short.getD 3 [] := by decide +kernel
  unfold nkeccak nsponge
  rw [nlanes_chunk _ (by decide +kernel), a, b, c]

set_option maxRecDepth 100000 in
theorem block_short_4 : nkeccak (digest_short ++ ctrBytes 4) = blocks_short.getD 4 [] := by
  have a : chunk8 ((digest_short ++ ctrBytes 4) ++ Spec.pad 1 136 (List.length (α := Nat) (digest_short ++ ctrBytes 4))) ++ List.replicate 8 0 = [10937671931973578266, 6955058329420517873, 16292189072408554699, 17432403028669289563, 288230376151711744, 1, 0, 0, 0, 0, 0, 0, 0, 0, 0, 0, 9223372036854775808, 0, 0, 0, 0, 0, 0, 0, 0] := by decide +kernel
  have b : nF [10937671931973578266, 6955058329420517873, 16292189072408554699, 17432403028669289563, 288230376151711744, 1, 0, 0, 0, 0, 0, 0, 0, 0, 0, 0, 9223372036854775808, 0, 0, 0, 0, 0, 0, 0, 0] = [1420547481058977703, 16108734848065534780, 6741468765494155283, 10078239855265029385, 17374416011556901902, 17616095792308191749, 995541038340067848, 12318242811340005690, 10550831477805245106, 13189310133751597386, 11742910077216021385, 11862105354572492620, 6721218377476371159, 16116203090285087330, 13861648042059963729, 9445238022963149197, 10502733847162484496, 851150188924764072, 11975130808603962058, 18223131040207534437, 10946530762380356601, 5140745835791519992, 586681085941220036, 7381560156493541839, 4893741174581467164] := by decide +kernel
  have c : nbytes (List.take 4 [1420547481058977703, 16108734848065534780, 6741468765494155283, 10078239855265029385, 17374416011556901902, 17616095792308191749, 995541038340067848, 12318242811340005690, 10550831477805245106, 13189310133751597386, 11742910077216021385, 11862105354572492620, 6721218377476371159, 16116203090285087330, 13861648042059963729, 9445238022963149197, 10502733847162484496, 851150188924764072, 11975130808603962058, 18223131040207534437, 10946530762380356601, 5140745835791519992, 586681085941220036, 7381560156493541839, 4893741174581467164]) = blocks_short.getD 4 [] := by decide +kernel
  unfold nkeccak nsponge
  rw [nlanes_chunk _ (by decide +kernel), a, b, c]

set_option maxRecDepth 100000 in
theorem block_short_5 : nkeccak (digest_short ++ ctrBytes 5) = blocks_short.getD 5 [] := by
  have a : chunk8 ((digest_short ++ ctrBytes 5) ++ Spec.pad 1 136 (List.length (α := Nat) (digest_short ++ ctrBytes 5))) ++ List.replicate 8 0 = [10937671931973578266, 6955058329420517873, 16292189072408554699, 17432403028669289563, 360287970189639680, 1, 0, 0, 0, 0, 0, 0, 0, 0, 0, 0, 9223372036854775808, 0, 0, 0, 0, 0, 0, 0, 0] := by decide +kernel
  have b : nF [10937671931973578266, 6955058329420517873, 16292189072408554699, 17432403028669289563, 360287970189639680, 1, 0, 0, 0, 0, 0, 0, 0, 0, 0, 0, 9223372036854775808, 0, 0, 0, 0, 0, 0, 0, 0] = [4593936321345252514, 3701368986648886200, 18305760224835560134, 11113831213682605407, 5348978150382080233, 13285780636688483182, 17491502365382213729, 10958820178004402300, 7780698047948144510, 14255603282452196775, 17781834476720719301, 10269350590741171237, 8996477141227640736, 5530216916334325475, 12115135096948445174, 14675935602584610959, 9991897652945502084, 9739655399336678548, 6329101131017963196, 12802698076644161523, 16999150695000728589, 6910132509497711875, 11488729904877869106, 17620593048179231366, 958801322767988708] := by decide +kernel
  have c : nbytes (List.take 4 [4593936321345252514, 3701368986648886200, 18305760224835560134, 11113831213682605407, 5348978150382080233, 13285780636688483182, 17491502365382213729, 10958820178004402300, 7780698047948144510, 14255603282452196775, 17781834476720719301, 10269350590741171237, 8996477141227640736, 5530216916334325475, 12115135096948445174, 14675935602584610959, 9991897652945502084, 9739655399336678548, 6329101131017963196, 12802698076644161523, 16999150695000728589, 6910132509497711875, 11488729904877869106, 17620593048179231366, 958801322767988708]) = blocks_short.getD 5 [] := by decide +kernel
  unfold nkeccak nsponge
  rw [nlanes_chunk _ (by decide +kernel), a, b, c]

set_option maxRecDepth 100000 in
theorem block_short_6 : nkeccak (digest_short ++ ctrBytes 6) = blocks_short.getD 6 [] := by
  have a : chunk8 ((digest_short ++ ctrBytes 6) ++ Spec.pad 1 136 (List.length (α := Nat) (digest_short ++ ctrBytes 6))) ++ List.replicate 8 0 = [10937671931973578266, 6955058329420517873, 16292189072408554699, 17432403028669289563, 432345564227567616, 1, 0, 0, 0, 0, 0, 0, 0, 0, 0, 0, 9223372036854775808, 0, 0, 0, 0, 0, 0, 0, 0] := by decide +kernel
  have b : nF [10937671931973578266, 6955058329420517873, 16292189072408554699, 17432403028669289563, 432345564227567616, 1, 0, 0, 0, 0, 0, 0, 0, 0, 0, 0, 9223372036854775808, 0, 0, 0, 0, 0, 0, 0, 0] = [6833626311939583383, 2747389513928877255, 6687695154549504553, 9500915962012681362, 525104319576598125, 6897108615920456542, 9920178144997240103, 2959171375212990750, 2525110046380377017, 11810424378662428886, 2194824086370770178, 12048852002239575731, 9606470823644737691, 5976985453302498280, 6225755273889925273, 13132235059205602768, 14810902688935724201, 1392322811790039053, 5756873328113810794, 8735617349086543333, 18165057755289164671, 3929060894078546787, 10524999781008985910, 14524484811394811096, 1643517445316510626] := by decide +kernel
  have c : nbytes (List.take 4 [6833626311939583383, 2747389513928877255, 6687695154549504553, 9500915962012681362, 525104319576598125, 6897108615920456542, 9920178144997240103, 2959171375212990750, 2525110046380377017, 11810424378662428886, 2194824086370770178, 12048852002239575731, 9606470823644737691, 5976985453302498280, 6225755273889925273, 13132235059205602768, 14810902688935724201, 1392322811790039053, 5756873328113810794, 8735617349086543333, 18165057755289164671, 3929060894078546787, 10524999781008985910, 14524484811394811096, 1643517445316510626]) = blocks_short.getD 6 [] := by decide +kernel
  unfold nkeccak nsponge
  rw [nlanes_chunk _ (by decide +kernel), a, b, c]

set_option maxRecDepth 100000 in
theorem block_short_7 : nkeccak (digest_short ++ ctrBytes 7) = blocks_short.getD 7 [] := by
  have a : chunk8 ((digest_short ++ ctrBytes 7) ++ Spec.pad 1 136 (List.length (α := Nat) (digest_short ++ ctrBytes 7))) ++ List.replicate 8 0 = [10937671931973578266, 6955058329420517873, 16292189072408554699, 17432403028669289563, 504403158265495552, 1, 0, 0, 0, 0, 0, 0, 0, 0, 0, 0, 9223372036854775808, 0, 0, 0, 0, 0, 0, 0, 0] := by decide +kernel
  have b : nF [10937671931973578266, 6955058329420517873, 16292189072408554699, 17432403028669289563, 504403158265495552, 1, 0, 0, 0, 0, 0, 0, 0, 0, 0, 0, 9223372036854775808, 0, 0, 0, 0, 0, 0, 0, 0] = [30849441694313988, 14382699211657681489, 12662429735806889036, 5704542352018168935, 12613918411217106442, 5756767272621920211, 8953093867793570375, 12021424104281849251, 9485556041327331271, 13424476808452167717, 15261114628350373753, 4518338556367692755, 9520196028065689868, 7948933542845206196, 9152091189812870948, 16026763067995329459, 318460080990920117, 11008838069013203846, 12242040561717110603, 4431096935838722483, 4940585748806327372, 9540960138853696094, 15324443882457633178, 3281113117209690221, 5480800949680012158] := by decide +kernel
  have c : nbytes (List.take 4 [30849441694313988, 14382699211657681489, 12662429735806889036, 5704542352018168935, 12613918411217106442, 5756767272621920211, 8953093867793570375, 12021424104281849251, 9485556041327331271, 13424476808452167717, 15261114628350373753, 4518338556367692755, 9520196028065689868, 7948933542845206196, 9152091189812870948, 16026763067995329459, 318460080990920117, 11008838069013203846, 12242040561717110603, 4431096935838722483, 4940585748806327372, 9540960138853696094, 15324443882457633178, 3281113117209690221, 5480800949680012158]) = blocks_short.getD 7 [] := by decide +kernel
  unfold nkeccak nsponge
  rw [nlanes_chunk _ (by decide +kernel), a, b, c]

set_option maxRecDepth 100000 in
theorem block_short_8 : nkeccak (digest_short ++ ctrBytes 8) = blocks_short.getD 8 [] := by
  have a : chunk8 ((digest_short ++ ctrBytes 8) ++ Spec.pad 1 136 (List.length (α := Nat) (digest_short ++ ctrBytes 8))) ++ List.replicate 8 0 = [10937671931973578266, 6955058329420517873, 16292189072408554699, 17432403028669289563, 576460752303423488, 1, 0, 0, 0, 0, 0, 0, 0, 0, 0, 0, 9223372036854775808, 0, 0, 0, 0, 0, 0, 0, 0] := by decide +kernel
  have b : nF [10937671931973578266, 6955058329420517873, 16292189072408554699, 17432403028669289563, 576460752303423488, 1, 0, 0, 0, 0, 0, 0, 0, 0, 0, 0, 9223372036854775808, 0, 0, 0, 0, 0, 0, 0, 0] = [5234695578759957479, 8260707603519726734, 11094878919276108072, 17460321141819126818, 18210380175786566991, 11898274822473074640, 15511980604872511941, 8973677791775050507, 11982817273938045074, 7662767337138766642, 9481026795186813417, 10005128804775720006, 8218477185151752238, 1547776243744510649, 5125038386544271859, 15566683392692180327, 11731182843853815213, 5078611844506298425, 14717520480410685021, 7481940922347964616, 13771550323826912653, 18074648164439209213, 5538732096726241062, 16556893662604873984, 15357349934996002929] := by decide +kernel
  have c : nbytes (List.take 4 [5234695578759957479, 8260707603519726734, 11094878919276108072, 17460321141819126818, 18210380175786566991, 11898274822473074640, 15511980604872511941, 8973677791775050507, 11982817273938045074, 7662767337138766642, 9481026795186813417, 10005128804775720006, 8218477185151752238, 1547776243744510649, 5125038386544271859, 15566683392692180327, 11731182843853815213, 5078611844506298425, 14717520480410685021, 7481940922347964616, 13771550323826912653, 18074648164439209213, 5538732096726241062, 16556893662604873984, 15357349934996002929]) = blocks_short.getD 8 [] := by decide +kernel
  unfold nkeccak nsponge
  rw [nlanes_chunk _ (by decide +kernel), a, b, c]

set_option maxRecDepth 100000 in
theorem block_short_9 : nkeccak (digest_short ++ ctrBytes 9) = blocks_short.getD 9 [] := by
  have a : chunk8 ((digest_short ++ ctrBytes 9) ++ Spec.pad 1 136 (List.length (α := Nat) (digest_short ++ ctrBytes 9))) ++ List.replicate 8 0 = [10937671931973578266, 6955058329420517873, 16292189072408554699, 17432403028669289563, 648518346341351424, 1, 0, 0, 0, 0, 0, 0, 0, 0, 0, 0, 9223372036854775808, 0, 0, 0, 0, 0, 0, 0, 0] := by decide +kernel
  have b : nF [10937671931973578266, 6955058329420517873, 16292189072408554699, 17432403028669289563, 648518346341351424, 1, 0, 0, 0, 0, 0, 0, 0, 0, 0, 0, 9223372036854775808, 0, 0, 0, 0, 0, 0, 0, 0] = [16951562403953126748, 15405465705694396472, 13791242036357242921, 1091440962682742631, 9309887170034349869, 7246459252015206310, 13509785385178966254, 16946652445271726037, 1227430414864711614, 18445875341210362754, 799687185667754300, 13014527682585304938, 13052124496440176271, 3024470982863505449, 9781707054600075779, 6926095653082339189, 4575194092609769173, 8437808974667910953, 15213545730475376582, 7954895089074780812, 3901926445069578483, 2068454159041864299, 4879171782072234092, 10934320324052233541, 368710081492481755] := by decide +kernel
  have c : nbytes (List.take 4 [16951562403953126748, 15405465705694396472, 13791242036357242921, 1091440962682742631, 9309887170034349869, 7246459252015206310, 13509785385178966254, 16946652445271726037, 1227430414864711614, 18445875341210362754, 799687185667754300, 13014527682585304938, 13052124496440176271, 3024470982863505449, 9781707054600075779, 6926095653082339189, 4575194092609769173, 8437808974667910953, 15213545730475376582, 7954895089074780812, 3901926445069578483, 2068454159041864299, 4879171782072234092, 10934320324052233541, 368710081492481755]) = blocks_short.getD 9 [] := by decide +kernel
  unfold nkeccak nsponge
  rw [nlanes_chunk _ (by decide +kernel), a, b, c]

set_option maxRecDepth 100000 in
theorem block_short_10 : nkeccak (digest_short ++ ctrBytes 10) = blocks_short.getD 10 [] := by
  have a : chunk8 ((digest_short ++ ctrBytes 10) ++ Spec.pad 1 136 (List.length (α := Nat) (digest_short ++ ctrBytes 10))) ++ List.replicate 8 0 = [10937671931973578266, 6955058329420517873, 16292189072408554699, 17432403028669289563, 720575940379279360, 1, 0, 0, 0, 0, 0, 0, 0, 0, 0, 0, 9223372036854775808, 0, 0, 0, 0, 0, 0, 0, 0] := by decide +kernel
  have b : nF [10937671931973578266, 6955058329420517873, 16292189072408554699, 17432403028669289563, 720575940379279360, 1, 0, 0, 0, 0, 0, 0, 0, 0, 0, 0, 9223372036854775808, 0, 0, 0, 0, 0, 0, 0, 0] = [4211735594920333742, 6904327484208421571, 13068693186710053244, 15609574367585767859, 4895526438989200372, 6134703975358807254, 18383252702584754881, 18150483509127149819, 2455701206851642797, 14829163964018713657, 13055340279753581575, 6007277389446403758, 10510815716655335602, 17491486398883544006, 376912945277464512, 14906298304928734122, 18271701117614894438, 1941030301735291524, 7435020618214070233, 1109406830663669002, 9251623394246938631, 11454972376904839661, 1034872261324639801, 8519005528842915342, 602354159751714810] := by decide +kernel
  have c : nbytes (List.take 4 [4211735594920333742, 6904327484208421571, 13068693186710053244, 15609574367585767859, 4895526438989200372, 6134703975358807254, 18383252702584754881, 18150483509127149819, 2455701206851642797, 14829163964018713657, 13055340279753581575, 6007277389446403758, 10510815716655335602, 17491486398883544006, 376912945277464512, 14906298304928734122, 18271701117614894438, 1941030301735291524, 7435020618214070233, 1109406830663669002, 9251623394246938631, 11454972376904839661, 1034872261324639801, 8519005528842915342, 602354159751714810]) = blocks_short.getD 10 [] := by decide +kernel
  unfold nkeccak nsponge
  rw [nlanes_chunk _ (by decide +kernel), a, b, c]

set_option maxRecDepth 100000 in
theorem block_short_11 : nkeccak (digest_short ++ ctrBytes 11) = blocks_short.getD 11 [] := by
  have a : chunk8 ((digest_short ++ ctrBytes 11) ++ Spec.pad 1 136 (List.length (α := Nat) (digest_short ++ ctrBytes 11))) ++ List.replicate 8 0 = [10937671931973578266, 6955058329420517873, 16292189072408554699, 17432403028669289563, 792633534417207296, 1, 0, 0, 0, 0, 0, 0, 0, 0, 0, 0, 9223372036854775808, 0, 0, 0, 0, 0, 0, 0, 0] := by decide +kernel
  have b : nF [10937671931973578266, 6955058329420517873, 16292189072408554699, 17432403028669289563, 792633534417207296, 1, 0, 0, 0, 0, 0, 0, 0, 0, 0, 0, 9223372036854775808, 0, 0, 0, 0, 0, 0, 0, 0] = [6824493089363192497, 3080527827762620215, 5506489716490564171, 18140332788751011036, 7623770720115605931, 4031548599365015342, 11893487858357643992, 13604474119560436774, 11517142816054950338, 18004626743213633808, 2951801627837176978, 9342429111713401323, 16214310014709674161, 13317316795597957731, 14884812978657489035, 9973469214233920143, 6944803523819880524, 11661804803006088511, 15588628748748724252, 7469998543405383123, 5665823456247449745, 11660263727581505676, 17828561479377239111, 8780943637348454166, 10567872651716488874] := by decide +kernel
  have c : nbytes (List.take 4 [6824493089363192497, 3080527827762620215, 5506489716490564171, 18140332788751011036, 7623770720115605931, 4031548599365015342, 11893487858357643992, 13604474119560436774, 11517142816054950338, 18004626743213633808, 2951801627837176978, 9342429111713401323, 16214310014709674161, 13317316795597957731, 14884812978657489035, 9973469214233920143, 6944803523819880524, 11661804803006088511, 15588628748748724252, 7469998543405383123, 5665823456247449745, 11660263727581505676, 17828561479377239111, 8780943637348454166, 10567872651716488874]) = blocks_short.getD 11 [] := by decide +kernel
  unfold nkeccak nsponge
  rw [nlanes_chunk _ (by decide +kernel), a, b, c]

set_option maxRecDepth 100000 in
theorem block_short_12 : nkeccak (digest_short ++ ctrBytes 12) = blocks_short.getD 12 [] := by
  have a : chunk8 ((digest_short ++ ctrBytes 12) ++ Spec.pad 1 136 (List.length (α := Nat) (digest_short ++ ctrBytes 12))) ++ List.replicate 8 0 = [10937671931973578266, 6955058329420517873, 16292189072408554699, 17432403028669289563, 864691128455135232, 1, 0, 0, 0, 0, 0, 0, 0, 0, 0, 0, 9223372036854775808, 0, 0, 0, 0, 0, 0, 0, 0] := by decide +kernel
  have b : nF [10937671931973578266, 6955058329420517873, 16292189072408554699, 17432403028669289563, 864691128455135232, 1, 0, 0, 0, 0, 0, 0, 0, 0, 0, 0, 9223372036854775808, 0, 0, 0, 0, 0, 0, 0, 0] = [14478905832006392948, 13308323400397455924, 7869909264233644175, 5746623319597690062, 8445246761865950255, 1439689414123344495, 2236343335594802407, 6391489484203543562, 8385833659824230525, 10105781512625179503, 4628927213709523509, 14259343675072874250, 5474050143302267855, 1173353453547714671, 17543290193376330195, 15059526432987099902, 17082776458101361218, 1555232751883272241, 18178244630617735577, 348130700558957557, 6481352169835432519, 672790293309063827, 16516250632220216772, 4661603210735379151, 12972780022443172141] := by decide +kernel
  have c : nbytes (List.take 4 [14478905832006392948, 13308323400397455924, 7869909264233644175, 5746623319597690062, 8445246761865950255, 1439689414123344495, 2236343335594802407, 6391489484203543562, 8385833659824230525, 10105781512625179503, 4628927213709523509, 14259343675072874250, 5474050143302267855, 1173353453547714671, 17543290193376330195, 15059526432987099902, 17082776458101361218, 1555232751883272241, 18178244630617735577, 348130700558957557, 6481352169835432519, 672790293309063827, 16516250632220216772, 4661603210735379151, 12972780022443172141]) = blocks_short.getD 12 [] := by decide +kernel
  unfold nkeccak nsponge
  rw [nlanes_chunk _ (by decide +kernel), a, b, c]

set_option maxRecDepth 100000 in
theorem block_short_13 : nkeccak (digest_short ++ ctrBytes 13) = blocks_short.getD 13 [] := by
  have a : chunk8 ((digest_short ++ ctrBytes 13) ++ Spec.pad 1 136 (List.length (α := Nat) (digest_short ++ ctrBytes 13))) ++ List.replicate 8 0 = [10937671931973578266, 6955058329420517873, 16292189072408554699, 17432403028669289563, 936748722493063168, 1, 0, 0, 0, 0, 0, 0, 0, 0, 0, 0, 9223372036854775808, 0, 0, 0, 0, 0, 0, 0, 0] := by decide +kernel
  have b : nF [10937671931973578266, 6955058329420517873, 16292189072408554699, 17432403028669289563, 936748722493063168, 1, 0, 0, 0, 0, 0, 0, 0, 0, 0, 0, 9223372036854775808, 0, 0, 0, 0, 0, 0, 0, 0] = [462563206103233690, 817921116516071175, 15034676402853252942, 10580774420892388622, 2534933932966758408, 7617130388105061278, 17478636298810445449, 1624302475873409638, 12177267709643196246, 15017388144021224688, 6041709679602351105, 13941352842853248620, 11076471493586406685, 14116281188301226298, 8276286046184833437, 16917776937110971510, 15552896520287007929, 11729784582748062685, 2323419631130712137, 98236358526293688, 11538151933071503198, 9748765347426198610, 7640019704724878623, 5593216084490659895, 4615783542305639105] := by decide +kernel
  have c : nbytes (List.take 4 [462563206103233690, 817921116516071175, 15034676402853252942, 10580774420892388622, 2534933932966758408, 7617130388105061278, 17478636298810445449, 1624302475873409638, 12177267709643196246, 15017388144021224688, 6041709679602351105, 13941352842853248620, 11076471493586406685, 14116281188301226298, 8276286046184833437, 16917776937110971510, 15552896520287007929, 11729784582748062685, 2323419631130712137, 98236358526293688, 11538151933071503198, 9748765347426198610, 7640019704724878623, 5593216084490659895, 4615783542305639105]) = blocks_short.getD 13 [] := by decide +kernel
  unfold nkeccak nsponge
  rw [nlanes_chunk _ (by decide +kernel), a, b, c]

set_option maxRecDepth 100000 in
theorem block_short_14 : nkeccak (digest_short ++ ctrBytes 14) = blocks_short.getD 14 [] := by
  have a : chunk8 ((digest_short ++ ctrBytes 14) ++ Spec.pad 1 136 (List.length (α := Nat) (digest_short ++ ctrBytes 14))) ++ List.replicate 8 0 = [10937671931973578266, 6955058329420517873, 16292189072408554699, 17432403028669289563, 1008806316530991104, 1, 0, 0, 0, 0, 0, 0, 0, 0, 0, 0, 9223372036854775808, 0, 0, 0, 0, 0, 0, 0, 0] := by decide +kernel
  have b : nF [10937671931973578266, 6955058329420517873, 16292189072408554699, 17432403028669289563, 1008806316530991104, 1, 0, 0, 0, 0, 0, 0, 0, 0, 0, 0, 9223372036854775808, 0, 0, 0, 0, 0, 0, 0, 0] = [4219353990697212059, 4412464453885857412, 9075385459435773793, 14946600306122159744, 871128019246810499, 9513285576401400585, 11965203737189433686, 11722803839264283009, 1538402493702239417, 11254304963148888093, 4202430018637069530, 7317102286035146613, 6144734241617671338, 6344982155323530167, 8038301803638035246, 834899566504511686, 4787702636095706587, 8191010557074720818, 2416789496145211949, 7696945586402398125, 3604640555734761736, 11802342646302209404, 4122220940634160307, 12533920288907082341, 15617439665364243709] := by decide +kernel
  have c : nbytes (List.take 4 [4219353990697212059, 4412464453885857412, 9075385459435773793, 14946600306122159744, 871128019246810499, 9513285576401400585, 11965203737189433686, 11722803839264283009, 1538402493702239417, 11254304963148888093, 4202430018637069530, 7317102286035146613, 6144734241617671338, 6344982155323530167, 8038301803638035246, 834899566504511686, 4787702636095706587, 8191010557074720818, 2416789496145211949, 7696945586402398125, 3604640555734761736, 11802342646302209404, 4122220940634160307, 12533920288907082341, 15617439665364243709]) = blocks_short.getD 14 [] := by decide +kernel
  unfold nkeccak nsponge
  rw [nlanes_chunk _ (by decide +kernel), a, b, c]

set_option maxRecDepth 100000 in
theorem block_short_15 : nkeccak (digest_short ++ ctrBytes 15) = blocks_short.getD 15 [] := by
  have a : chunk8 ((digest_short ++ ctrBytes 15) ++ Spec.pad 1 136 (List.length (α := Nat) (digest_short ++ ctrBytes 15))) ++ List.replicate 8 0 = [10937671931973578266, 6955058329420517873, 16292189072408554699, 17432403028669289563, 1080863910568919040, 1, 0, 0, 0, 0, 0, 0, 0, 0, 0, 0, 9223372036854775808, 0, 0, 0, 0, 0, 0, 0, 0] := by decide +kernel
  have b : nF [10937671931973578266, 6955058329420517873, 16292189072408554699, 17432403028669289563, 1080863910568919040, 1, 0, 0, 0, 0, 0, 0, 0, 0, 0, 0, 9223372036854775808, 0, 0, 0, 0, 0, 0, 0, 0] = [3230532108492242441, 5273464050130548944, 17430785012406006746, 4283338107182979636, 13062591100180506672, 13026713307335965677, 9932755365697174552, 13282834641166737264, 11731716809955972915, 16743210352112233403, 16717941218455603891, 15726323401822100980, 6529927951090478913, 15874910057808223118, 10222465716585534273, 15555811064164982700, 9464946910664470174, 15069582256062964716, 14598458983234618571, 14988270520350650670, 3826774489489537825, 7076000270848837363, 15920621675709071413, 5344210653341109885, 2027568133646998240] := by decide +kernel
  have c : nbytes (List.take 4 [3230532108492242441, 5273464050130548944, 17430785012406006746, 4283338107182979636, 13062591100180506672, 13026713307335965677, 9932755365697174552, 13282834641166737264, 11731716809955972915, 16743210352112233403, 16717941218455603891, 15726323401822100980, 6529927951090478913, 15874910057808223118, 10222465716585534273, 15555811064164982700, 9464946910664470174, 15069582256062964716, 14598458983234618571, 14988270520350650670, 3826774489489537825, 7076000270848837363, 15920621675709071413, 5344210653341109885, 2027568133646998240]) = blocks_short.getD 15 [] := by decide +kernel
  unfold nkeccak nsponge
  rw [nlanes_chunk _ (by decide +kernel), a, b, c]

set_option maxRecDepth 100000 in
theorem block_short_16 : nkeccak (digest_short ++ ctrBytes 16) = blocks_short.getD 16 [] := by
  have a : chunk8 ((digest_short ++ ctrBytes 16) ++ Spec.pad 1 136 (List.length (α := Nat) (digest_short ++ ctrBytes 16))) ++ List.replicate 8 0 = [10937671931973578266, 6955058329420517873, 16292189072408554699, 17432403028669289563, 1152921504606846976, 1, 0, 0, 0, 0, 0, 0, 0, 0, 0, 0, 9223372036854775808, 0, 0, 0, 0, 0, 0, 0, 0] := by decide +kernel
  have b : nF [10937671931973578266, 6955058329420517873, 16292189072408554699, 17432403028669289563, 1152921504606846976, 1, 0, 0, 0, 0, 0, 0, 0, 0, 0, 0, 9223372036854775808, 0, 0, 0, 0, 0, 0, 0, 0] = [14970251707967843969, 8645776323498284832, 14337026302593213566, 7148902098938843234, 8988889145995068858, 2618311022860378999, 4491088790345742803, 12107331055898119790, 13210145391705793506, 10791758737487227980, 17399579964667623653, 13018269125328792180, 16158621649155260009, 15456672256011157896, 4140453783571366236, 13838005557112162075, 10390523723889959876, 7496285858641502176, 14321855398199184211, 1541065914782623135, 6390188742153205455, 4784990859215564795, 2461347946324681587, 17677572641850804606, 5856204071037169577] := by decide +kernel
  have c : nbytes (List.take 4 [14970251707967843969, 8645776323498284832, 14337026302593213566, 7148902098938843234, 8988889145995068858, 2618311022860378999, 4491088790345742803, 12107331055898119790, 13210145391705793506, 10791758737487227980, 17399579964667623653, 13018269125328792180, 16158621649155260009, 15456672256011157896, 4140453783571366236, 13838005557112162075, 10390523723889959876, 7496285858641502176, 14321855398199184211, 1541065914782623135, 6390188742153205455, 4784990859215564795, 2461347946324681587, 17677572641850804606, 5856204071037169577]) = blocks_short.getD 16 [] := by decide +kernel
  unfold nkeccak nsponge
  rw [nlanes_chunk _ (by decide +kernel), a, b, c]

set_option maxRecDepth 100000 in
theorem block_short_17 : nkeccak (digest_short ++ ctrBytes 17) = blocks_short.getD 17 [] := by
  have a : chunk8 ((digest_short ++ ctrBytes 17) ++ Spec.pad 1 136 (List.length (α := Nat) (digest_short ++ ctrBytes 17))) ++ List.replicate 8 0 = [10937671931973578266, 6955058329420517873, 16292189072408554699, 17432403028669289563, 1224979098644774912, 1, 0, 0, 0, 0, 0, 0, 0, 0, 0, 0, 9223372036854775808, 0, 0, 0, 0, 0, 0, 0, 0] := by decide +kernel
  have b : nF [10937671931973578266, 6955058329420517873, 16292189072408554699, 17432403028669289563, 1224979098644774912, 1, 0, 0, 0, 0, 0, 0, 0, 0, 0, 0, 9223372036854775808, 0, 0, 0, 0, 0, 0, 0, 0] = [9004542328061644820, 12611005218709536111, 12112800458364775895, 11117602144353620307, 10634636613608362339, 12063181557646825271, 16133279257443423238, 3083042430360419066, 11659934763328674001, 12485282524348024015, 7578345829449556986, 17974174299460421835, 7185843215213838536, 13205033045280099715, 12808097805727803785, 3304000465147830330, 15794550740272004904, 4651983570630497406, 9648696148218234187, 4500651158059709283, 7223501522766714263, 4036886287134341429, 11976095219788297174, 749436984307370182, 15538885076670805411] := by decide +kernel
  have c : nbytes (List.take 4 [9004542328061644820, 12611005218709536111, 12112800458364775895, 11117602144353620307, 10634636613608362339, 12063181557646825271, 16133279257443423238, 3083042430360419066, 11659934763328674001, 12485282524348024015, 7578345829449556986, 17974174299460421835, 7185843215213838536, 13205033045280099715, 12808097805727803785, 3304000465147830330, 15794550740272004904, 4651983570630497406, 9648696148218234187, 4500651158059709283, 7223501522766714263, 4036886287134341429, 11976095219788297174, 749436984307370182, 15538885076670805411]) = blocks_short.getD 17 [] := by decide +kernel
  unfold nkeccak nsponge
  rw [nlanes_chunk _ (by decide +kernel), a, b, c]

set_option maxRecDepth 100000 in
theorem block_short_18 : nkeccak (digest_short ++ ctrBytes 18) = blocks_short.getD 18 [] := by
  have a : chunk8 ((digest_short ++ ctrBytes 18) ++ Spec.pad 1 136 (List.length (α := Nat) (digest_short ++ ctrBytes 18))) ++ List.replicate 8 0 = [10937671931973578266, 6955058329420517873, 16292189072408554699, 17432403028669289563, 1297036692682702848, 1, 0, 0, 0, 0, 0, 0, 0, 0, 0, 0, 9223372036854775808, 0, 0, 0, 0, 0, 0, 0, 0] := by decide +kernel
  have b : nF [10937671931973578266, 6955058329420517873, 16292189072408554699, 17432403028669289563, 1297036692682702848, 1, 0, 0, 0, 0, 0, 0, 0, 0, 0, 0, 9223372036854775808, 0, 0, 0, 0, 0, 0, 0, 0] = [1914069564495686713, 13747963526973067486, 44763624208381648, 7323964870552753976, 12607128373632623472, 9682284756332749698, 2815798366077847381, 17633691279725709098, 12238530008682971080, 13952117598274955874, 10200474263318217472, 14537164857338433888, 15936426865489485669, 18282295889257666412, 10237117495502647653, 10896004105401501095, 4836635485383087210, 2921292926823171723, 3445837103217122172, 6960891855365907292, 16905073006063304745, 12183038706126989815, 16970707218307944626, 5365690540599602884, 2137988176873328073] := by decide +kernel
  have c : nbytes (List.take 4 [1914069564495686713, 13747963526973067486, 44763624208381648, 7323964870552753976, 12607128373632623472, 9682284756332749698, 2815798366077847381, 17633691279725709098, 12238530008682971080, 13952117598274955874, 10200474263318217472, 14537164857338433888, 15936426865489485669, 18282295889257666412, 10237117495502647653, 10896004105401501095, 4836635485383087210, 2921292926823171723, 3445837103217122172, 6960891855365907292, 16905073006063304745, 12183038706126989815, 16970707218307944626, 5365690540599602884, 2137988176873328073]) = blocks_short.getD 18 [] := by decide +kernel
  unfold nkeccak nsponge
  rw [nlanes_chunk _ (by decide +kernel), a, b, c]

set_option maxRecDepth 100000 in
theorem block_short_19 : nkeccak (digest_short ++ ctrBytes 19) = blocks_short.getD 19 [] := by
  have a : chunk8 ((digest_short ++ ctrBytes 19) ++ Spec.pad 1 136 (List.length (α := Nat) (digest_short ++ ctrBytes 19))) ++ List.replicate 8 0 = [10937671931973578266, 6955058329420517873, 16292189072408554699, 17432403028669289563, 1369094286720630784, 1, 0, 0, 0, 0, 0, 0, 0, 0, 0, 0, 9223372036854775808, 0, 0, 0, 0, 0, 0, 0, 0] := by decide +kernel
  have b : nF [10937671931973578266, 6955058329420517873, 16292189072408554699, 17432403028669289563, 1369094286720630784, 1, 0, 0, 0, 0, 0, 0, 0, 0, 0, 0, 9223372036854775808, 0, 0, 0, 0, 0, 0, 0, 0] = [2456891023873267422, 3379678510594288015, 5612771254240137039, 1922199386144276614, 351909209756488651, 15270082962223270825, 10994400204735185512, 14103907982923258931, 14985132513155410528, 1152860300604891774, 17486000938679158257, 12018266447136802424, 9795859667805303955, 6576352550259139136, 9420947550116416448, 83373768052467030, 15768533817332435109, 17275862993861815289, 607771070986758059, 3132242488501546126, 3035701771059779715, 5483787236078303735, 7804975241380442676, 9362236989645153442, 16855412722844604264] := by decide +kernel
  have c : nbytes (List.take 4 [2456891023873267422, 3379678510594288015, 5612771254240137039, 1922199386144276614, 351909209756488651, 15270082962223270825, 10994400204735185512, 14103907982923258931, 14985132513155410528, 1152860300604891774, 17486000938679158257, 12018266447136802424, 9795859667805303955, 6576352550259139136, 9420947550116416448, 83373768052467030, 15768533817332435109, 17275862993861815289, 607771070986758059, 3132242488501546126, 3035701771059779715, 5483787236078303735, 7804975241380442676, 9362236989645153442, 16855412722844604264]) = blocks_short.getD 19 [] := by decide +kernel
  unfold nkeccak nsponge
  rw [nlanes_chunk _ (by decide +kernel), a, b, c]

set_option maxRecDepth 100000 in
theorem block_short_20 : nkeccak (digest_short ++ ctrBytes 20) = blocks_short.getD 20 [] := by
  have a : chunk8 ((digest_short ++ ctrBytes 20) ++ Spec.pad 1 136 (List.length (α := Nat) (digest_short ++ ctrBytes 20))) ++ List.replicate 8 0 = [10937671931973578266, 6955058329420517873, 16292189072408554699, 17432403028669289563, 1441151880758558720, 1, 0, 0, 0, 0, 0, 0, 0, 0, 0, 0, 9223372036854775808, 0, 0, 0, 0, 0, 0, 0, 0] := by decide +kernel
  have b : nF [10937671931973578266, 6955058329420517873, 16292189072408554699, 17432403028669289563, 1441151880758558720, 1, 0, 0, 0, 0, 0, 0, 0, 0, 0, 0, 9223372036854775808, 0, 0, 0, 0, 0, 0, 0, 0] = [2776640811134001374, 11323935989088087718, 11408020086956652294, 14291267200051584322, 12948051745647938527, 18181882656288457366, 11077923821909387560, 5622813623909358044, 5879793986403245431, 14733633901695082690, 2614517239462951541, 5980785356659989758, 18186400760452651870, 4019983914399322003, 17521114062741690986, 12348780850394122322, 4319935385548835537, 5623406203408497940, 11184742885934218934, 12601086899213070891, 15919668148084688813, 12862090189978948683, 6270684922985387374, 12163641330212952594, 1517447253753223812] := by decide +kernel
  have c : nbytes (List.take 4 [2776640811134001374, 11323935989088087718, 11408020086956652294, 14291267200051584322, 12948051745647938527, 18181882656288457366, 11077923821909387560, 5622813623909358044, 5879793986403245431, 14733633901695082690, 2614517239462951541, 5980785356659989758, 18186400760452651870, 4019983914399322003, 17521114062741690986, 12348780850394122322, 4319935385548835537, 5623406203408497940, 11184742885934218934, 12601086899213070891, 15919668148084688813, 12862090189978948683, 6270684922985387374, 12163641330212952594, 1517447253753223812]) = blocks_short.getD 20 [] := by decide +kernel
  unfold nkeccak nsponge
  rw [nlanes_chunk _ (by decide +kernel), a, b, c]

set_option maxRecDepth 100000 in
theorem block_short_21 : nkeccak (digest_short ++ ctrBytes 21) = blocks_short.getD 21 [] := by
  have a : chunk8 ((digest_short ++ ctrBytes 21) ++ Spec.pad 1 136 (List.length (α := Nat) (digest_short ++ ctrBytes 21))) ++ List.replicate 8 0 = [10937671931973578266, 6955058329420517873, 16292189072408554699, 17432403028669289563, 1513209474796486656, 1, 0, 0, 0, 0, 0, 0, 0, 0, 0, 0, 9223372036854775808, 0, 0, 0, 0, 0, 0, 0, 0] := by decide +kernel
  have b : nF [10937671931973578266, 6955058329420517873, 16292189072408554699, 17432403028669289563, 1513209474796486656, 1, 0, 0, 0, 0, 0, 0, 0, 0, 0, 0, 9223372036854775808, 0, 0, 0, 0, 0, 0, 0, 0] = [10435024854421394804, 15922900409691005226, 12292147376867591337, 6714633563093875287, 18348250933014919539, 16151630321890719913, 7692883454938205585, 7170185837412344248, 228571623180037149, 14923135240832770958, 15251172935121479170, 3952010198870336501, 13139735613351270345, 18170011585387273538, 13357857599994163753, 16439095380035105356, 9166284628277447625, 16069726055166876664, 14664115284149264430, 15434749198268835320, 1064591895136152667, 9017609253321574357, 5334571130844523023, 8781134557392611766, 17178231697537262764] := by decide +kernel
  have c : nbytes (List.take 4 [10435024854421394804, 15922900409691005226, 12292147376867591337, 6714633563093875287, 18348250933014919539, 16151630321890719913, 7692883454938205585, 7170185837412344248, 228571623180037149, 14923135240832770958, 15251172935121479170, 3952010198870336501, 13139735613351270345, 18170011585387273538, 13357857599994163753, 16439095380035105356, 9166284628277447625, 16069726055166876664, 14664115284149264430, 15434749198268835320, 1064591895136152667, 9017609253321574357, 5334571130844523023, 8781134557392611766, 17178231697537262764]) = blocks_short.getD 21 [] := by decide +kernel
  unfold nkeccak nsponge
  rw [nlanes_chunk _ (by decide +kernel), a, b, c]

set_option maxRecDepth 100000 in
theorem block_short_22 : nkeccak (digest_short ++ ctrBytes 22) = blocks_short.getD 22 [] := by
  have a : chunk8 ((digest_short ++ ctrBytes 22) ++ Spec.pad 1 136 (List.length (α := Nat) (digest_short ++ ctrBytes 22))) ++ List.replicate 8 0 = [10937671931973578266, 6955058329420517873, 16292189072408554699, 17432403028669289563, 1585267068834414592, 1, 0, 0, 0, 0, 0, 0, 0, 0, 0, 0, 9223372036854775808, 0, 0, 0, 0, 0, 0, 0, 0] := by decide +kernel
  have b : nF [10937671931973578266, 6955058329420517873, 16292189072408554699, 17432403028669289563, 1585267068834414592, 1, 0, 0, 0, 0, 0, 0, 0, 0, 0, 0, 9223372036854775808, 0, 0, 0, 0, 0, 0, 0, 0] = [6573188039101182790, 13412668983879471180, 7752237815520795007, 4311066750035805534, 12420886940141546297, 12133279307969542162, 2693310432937194980, 16253629611181247896, 532628764095530284, 821112672165993435, 5011650240575555988, 15113200097057920257, 37667192441451741, 243700472493516302, 7098448469797915707, 13275714466956878361, 200463442755482251, 3116421313328131864, 8129457956224260804, 10444559954882657405, 12742349605133987702, 3322088760637302238, 7897833869553318223, 16397808713904962596, 15426220021579334853] := by decide +kernel
  have c : nbytes (List.take 4 [6573188039101182790, 13412668983879471180, 7752237815520795007, 4311066750035805534, 12420886940141546297, 12133279307969542162, 2693310432937194980, 16253629611181247896, 532628764095530284, 821112672165993435, 5011650240575555988, 15113200097057920257, 37667192441451741, 243700472493516302, 7098448469797915707, 13275714466956878361, 200463442755482251, 3116421313328131864, 8129457956224260804, 10444559954882657405, 12742349605133987702, 3322088760637302238, 7897833869553318223, 16397808713904962596, 15426220021579334853]) = blocks_short.getD 22 [] := by decide +kernel
  unfold nkeccak nsponge
  rw [nlanes_chunk _ (by decide +kernel), a, b, c]

set_option maxRecDepth 100000 in
theorem block_short_23 : nkeccak (digest_short ++ ctrBytes 23) = blocks_short.getD 23 [] := by
  have a : chunk8 ((digest_short ++ ctrBytes 23) ++ Spec.pad 1 136 (List.length (α := Nat) (digest_short ++ ctrBytes 23))) ++ List.replicate 8 0 = [10937671931973578266, 6955058329420517873, 16292189072408554699, 17432403028669289563, 1657324662872342528, 1, 0, 0, 0, 0, 0, 0, 0, 0, 0, 0, 9223372036854775808, 0, 0, 0, 0, 0, 0, 0, 0] := by decide +kernel
  have b : nF [10937671931973578266, 6955058329420517873, 16292189072408554699, 17432403028669289563, 1657324662872342528, 1, 0, 0, 0, 0, 0, 0, 0, 0, 0, 0, 9223372036854775808, 0, 0, 0, 0, 0, 0, 0, 0] = [13589780077802033954, 6010257412069155390, 15316927943672130126, 11492760799850719524, 7246853761569651108, 11143768875726859010, 16097669889118046, 17979405900309649103, 7048838566734826207, 8534210453932382405, 14620567143431813869, 14923745901544301232, 16026179097531257389, 12354478617361551586, 1499829459444552547, 11816916697251739082, 15019596278489682642, 10196515775940746700, 8421677641085270287, 7777125573378764745, 8643008336815536663, 1972865598128308657, 2007969050152245725, 7125140787370779992, 5787133527249611907] := by decide +kernel
  have c : nbytes (List.take 4 [13589780077802033954, 6010257412069155390, 15316927943672130126, 11492760799850719524, 7246853761569651108, 11143768875726859010, 16097669889118046, 17979405900309649103, 7048838566734826207, 8534210453932382405, 14620567143431813869, 14923745901544301232, 16026179097531257389, 12354478617361551586, 1499829459444552547, 11816916697251739082, 15019596278489682642, 10196515775940746700, 8421677641085270287, 7777125573378764745, 8643008336815536663, 1972865598128308657, 2007969050152245725, 7125140787370779992, 5787133527249611907]) = blocks_short.getD 23 [] := by decide +kernel
  unfold nkeccak nsponge
  rw [nlanes_chunk _ (by decide +kernel), a, b, c]

set_option maxRecDepth 100000 in
theorem block_short_24 : nkeccak (digest_short ++ ctrBytes 24) = blocks_short.getD 24 [] := by
  have a : chunk8 ((digest_short ++ ctrBytes 24) ++ Spec.pad 1 136 (List.length (α := Nat) (digest_short ++ ctrBytes 24))) ++ List.replicate 8 0 = [10937671931973578266, 6955058329420517873, 16292189072408554699, 17432403028669289563, 1729382256910270464, 1, 0, 0, 0, 0, 0, 0, 0, 0, 0, 0, 9223372036854775808, 0, 0, 0, 0, 0, 0, 0, 0] := by decide +kernel
  have b : nF [10937671931973578266, 6955058329420517873, 16292189072408554699, 17432403028669289563, 1729382256910270464, 1, 0, 0, 0, 0, 0, 0, 0, 0, 0, 0, 9223372036854775808, 0, 0, 0, 0, 0, 0, 0, 0] = [10798524897964230476, 18338909512838147872, 16117752613309928504, 7589300255980929388, 6958395811998956139, 2206636308391574584, 17649738228859818382, 13149106432510906167, 17075145003807767350, 10512613482129630745, 12838400878649869817, 11326516663292238935, 16770364019259050882, 12099164351821322579, 13229300948993743516, 11294907388026336821, 16355229744887598087, 958215226142067571, 9611442352519630010, 9974021955028898722, 8025674131864334251, 6865298046195741239, 217244134471442605, 17980185167678271945, 7393319704825150844] := by decide +kernel
  have c : nbytes (List.take 4 [10798524897964230476, 18338909512838147872, 16117752613309928504, 7589300255980929388, 6958395811998956139, 2206636308391574584, 17649738228859818382, 13149106432510906167, 17075145003807767350, 10512613482129630745, 12838400878649869817, 11326516663292238935, 16770364019259050882, 12099164351821322579, 13229300948993743516, 11294907388026336821, 16355229744887598087, 958215226142067571, 9611442352519630010, 9974021955028898722, 8025674131864334251, 6865298046195741239, 217244134471442605, 17980185167678271945, 7393319704825150844]) = blocks_short.getD 24 [] := by decide +kernel
  unfold nkeccak nsponge
  rw [nlanes_chunk _ (by decide +kernel), a, b, c]

set_option maxRecDepth 100000 in
theorem block_short_25 : nkeccak (digest_short ++ ctrBytes 25) = blocks_short.getD 25 [] := by
  have a : chunk8 ((digest_short ++ ctrBytes 25) ++ Spec.pad 1 136 (List.length (α := Nat) (digest_short ++ ctrBytes 25))) ++ List.replicate 8 0 = [10937671931973578266, 6955058329420517873, 16292189072408554699, 17432403028669289563, 1801439850948198400, 1, 0, 0, 0, 0, 0, 0, 0, 0, 0, 0, 9223372036854775808, 0, 0, 0, 0, 0, 0, 0, 0] := by decide +kernel
  have b : nF [10937671931973578266, 6955058329420517873, 16292189072408554699, 17432403028669289563, 1801439850948198400, 1, 0, 0, 0, 0, 0, 0, 0, 0, 0, 0, 9223372036854775808, 0, 0, 0, 0, 0, 0, 0, 0] = [2780025643283557800, 4209786215323946238, 15408530801967501307, 5954856192410533329, 13775916987200740069, 12597232445169490690, 5037613369756646173, 13532847279486947521, 13748661091173754217, 2025237696031943070, 8466262744140738614, 955562816768668700, 12686714410112120035, 1465752604636948505, 13892198990993455656, 12336026413570393833, 13295135988828186824, 7083921929790044573, 18066325450357785478, 9741957812383938304, 969831223665064837, 2127100284921105322, 18088335265003025197, 6466515243707215041, 6873473139654381890] := by decide +kernel
  have c : nbytes (List.take 4 [2780025643283557800, 4209786215323946238, 15408530801967501307, 5954856192410533329, 13775916987200740069, 12597232445169490690, 5037613369756646173, 13532847279486947521, 13748661091173754217, 2025237696031943070, 8466262744140738614, 955562816768668700, 12686714410112120035, 1465752604636948505, 13892198990993455656, 12336026413570393833, 13295135988828186824, 7083921929790044573, 18066325450357785478, 9741957812383938304, 969831223665064837, 2127100284921105322, 18088335265003025197, 6466515243707215041, 6873473139654381890]) = blocks_short.getD 25 [] := by decide +kernel
  unfold nkeccak nsponge
  rw [nlanes_chunk _ (by decide +kernel), a, b, c]

set_option maxRecDepth 100000 in
theorem block_short_26 : nkeccak (digest_short ++ ctrBytes 26) = blocks_short.getD 26 [] := by
  have a : chunk8 ((digest_short ++ ctrBytes 26) ++ Spec.pad 1 136 (List.length (α := Nat) (digest_short ++ ctrBytes 26))) ++ List.replicate 8 0 = [10937671931973578266, 6955058329420517873, 16292189072408554699, 17432403028669289563, 1873497444986126336, 1, 0, 0, 0, 0, 0, 0, 0, 0, 0, 0, 9223372036854775808, 0, 0, 0, 0, 0, 0, 0, 0] := by decide +kernel
  have b : nF [10937671931973578266, 6955058329420517873, 16292189072408554699, 17432403028669289563, 1873497444986126336, 1, 0, 0, 0, 0, 0, 0, 0, 0, 0, 0, 9223372036854775808, 0, 0, 0, 0, 0, 0, 0, 0] = [8243929820465841781, 3473340771734889700, 1831409828297384222, 6939927871151832810, 2774585257233808137, 13318931549480454940, 6224392319526206681, 17593451396775993254, 5806227373897564529, 7790508346497746201, 9544305129256339867, 6752520682690828078, 7000377038945534019, 7725088689490582254, 15936772528044920022, 967514212365482663, 11994626636750475382, 3786829971888209282, 8748009776071594348, 354389900856891413, 1663390410226679538, 14475882245051702004, 12961949591496187903, 15481004785190473384, 17449196352958396095] := by decide +kernel
  have c : nbytes (List.take 4 [8243929820465841781, 3473340771734889700, 1831409828297384222, 6939927871151832810, 2774585257233808137, 13318931549480454940, 6224392319526206681, 17593451396775993254, 5806227373897564529, 7790508346497746201, 9544305129256339867, 6752520682690828078, 7000377038945534019, 7725088689490582254, 15936772528044920022, 967514212365482663, 11994626636750475382, 3786829971888209282, 8748009776071594348, 354389900856891413, 1663390410226679538, 14475882245051702004, 12961949591496187903, 15481004785190473384, 17449196352958396095]) = blocks_short.getD 26 [] := by decide +kernel
  unfold nkeccak nsponge
  rw [nlanes_chunk _ (by decide +kernel), a, b, c]

set_option maxRecDepth 100000 in
theorem block_short_27 : nkeccak (digest_short ++ ctrBytes 27) = blocks_short.getD 27 [] := by
  have a : chunk8 ((digest_short ++ ctrBytes 27) ++ Spec.pad 1 136 (List.length (α := Nat) (digest_short ++ ctrBytes 27))) ++ List.replicate 8 0 = [10937671931973578266, 6955058329420517873, 16292189072408554699, 17432403028669289563, 1945555039024054272, 1, 0, 0, 0, 0, 0, 0, 0, 0, 0, 0, 9223372036854775808, 0, 0, 0, 0, 0, 0, 0, 0] := by decide +kernel
  have b : nF [10937671931973578266, 6955058329420517873, 16292189072408554699, 17432403028669289563, 1945555039024054272, 1, 0, 0, 0, 0, 0, 0, 0, 0, 0, 0, 9223372036854775808, 0, 0, 0, 0, 0, 0, 0, 0] = [8884932313362865536, 8309929506524418075, 1948019744798646803, 10920193775819793541, 14798882962164171752, 9557145594693080358, 11925075241866220705, 15775894998697040388, 11497510202471033272, 12225135866495286222, 15604539141613351268, 5297301062222965843, 16608075339762499969, 16356347233595994985, 1119646617293246430, 16323568177543302641, 1703983656428340361, 3301234867041047881, 2237077852205752341, 12103883621662122367, 448301430573116666, 5675586290217733946, 8173126742036487055, 15902954140582742439, 9138890708418303330] := by decide +kernel
  have c : nbytes (List.take 4 [8884932313362865536, 8309929506524418075, 1948019744798646803, 10920193775819793541, 14798882962164171752, 9557145594693080358, 11925075241866220705, 15775894998697040388, 11497510202471033272, 12225135866495286222, 15604539141613351268, 5297301062222965843, 16608075339762499969, 16356347233595994985, 1119646617293246430, 16323568177543302641, 1703983656428340361, 3301234867041047881, 2237077852205752341, 12103883621662122367, 448301430573116666, 5675586290217733946, 8173126742036487055, 15902954140582742439, 9138890708418303330]) = blocks_short.getD 27 [] := by decide +kernel
  unfold nkeccak nsponge
  rw [nlanes_chunk _ (by decide +kernel), a, b, c]

set_option maxRecDepth 100000 in
theorem block_short_28 : nkeccak (digest_short ++ ctrBytes 28) = blocks_short.getD 28 [] := by
  have a : chunk8 ((digest_short ++ ctrBytes 28) ++ Spec.pad 1 136 (List.length (α := Nat) (digest_short ++ ctrBytes 28))) ++ List.replicate 8 0 = [10937671931973578266, 6955058329420517873, 16292189072408554699, 17432403028669289563, 2017612633061982208, 1, 0, 0, 0, 0, 0, 0, 0, 0, 0, 0, 9223372036854775808, 0, 0, 0, 0, 0, 0, 0, 0] := by decide +kernel
  have b : nF [10937671931973578266, 6955058329420517873, 16292189072408554699, 17432403028669289563, 2017612633061982208, 1, 0, 0, 0, 0, 0, 0, 0, 0, 0, 0, 9223372036854775808, 0, 0, 0, 0, 0, 0, 0, 0] = [15959669087544873353, 15088285627994256554, 6326351226157833962, 12785981193999324632, 5888242546816632550, 14415505304045153373, 1351298514265871453, 16910222760592260065, 4741665513360953789, 14578727378940725285, 11617941295910153826, 75698880986338985, 7320426627000159776, 2881943877470474390, 17489183940323602160, 6248507229618953033, 12427566966361384104, 6475200031090086888, 12143046424108806127, 13403120677302596246, 7906526807401028100, 13185192452829095270, 10523493928394373750, 6432631582857012973, 932954738727470430] := by decide +kernel
  have c : nbytes (List.take 4 [15959669087544873353, 15088285627994256554, 6326351226157833962, 12785981193999324632, 5888242546816632550, 14415505304045153373, 1351298514265871453, 16910222760592260065, 4741665513360953789, 14578727378940725285, 11617941295910153826, 75698880986338985, 7320426627000159776, 2881943877470474390, 17489183940323602160, 6248507229618953033, 12427566966361384104, 6475200031090086888, 12143046424108806127, 13403120677302596246, 7906526807401028100, 13185192452829095270, 10523493928394373750, 6432631582857012973, 932954738727470430]) = blocks_short.getD 28 [] := by decide +kernel
  unfold nkeccak nsponge
  rw [nlanes_chunk _ (by decide +kernel), a, b, c]

set_option maxRecDepth 100000 in
theorem block_short_29 : nkeccak (digest_short ++ ctrBytes 29) = blocks_short.getD 29 [] := by
  have a : chunk8 ((digest_short ++ ctrBytes 29) ++ Spec.pad 1 136 (List.length (α := Nat) (digest_short ++ ctrBytes 29))) ++ List.replicate 8 0 = [10937671931973578266, 6955058329420517873, 16292189072408554699, 17432403028669289563, 2089670227099910144, 1, 0, 0, 0, 0, 0, 0, 0, 0, 0, 0, 9223372036854775808, 0, 0, 0, 0, 0, 0, 0, 0] := by decide +kernel
  have b : nF [10937671931973578266, 6955058329420517873, 16292189072408554699, 17432403028669289563, 2089670227099910144, 1, 0, 0, 0, 0, 0, 0, 0, 0, 0, 0, 9223372036854775808, 0, 0, 0, 0, 0, 0, 0, 0] = [12322741281800773257, 8485252084546969793, 698989144662849416, 6764933852023181834, 7943600039745966941, 4281994957528178824, 14744355430142544705, 13265300523273315432, 9819140246415493107, 17366340142638282926, 2004209726924075584, 13345465107925877231, 16539048872239131947, 699228562736665159, 16292904277194334175, 2788254873997686848, 16785989996469524161, 7595834165085688858, 4957917593013290866, 15365870907099277102, 7697547650285123878, 9522444902131489856, 2877230849534470233, 4964643007994736578, 17412342977418903608] := by decide +kernel
  have c : nbytes (List.take 4 [12322741281800773257, 8485252084546969793, 698989144662849416, 6764933852023181834, 7943600039745966941, 4281994957528178824, 14744355430142544705, 13265300523273315432, 9819140246415493107, 17366340142638282926, 2004209726924075584, 13345465107925877231, 16539048872239131947, 699228562736665159, 16292904277194334175, 2788254873997686848, 16785989996469524161, 7595834165085688858, 4957917593013290866, 15365870907099277102, 7697547650285123878, 9522444902131489856, 2877230849534470233, 4964643007994736578, 17412342977418903608]) = blocks_short.getD 29 [] := by decide +kernel
  unfold nkeccak nsponge
  rw [nlanes_chunk _ (by decide +kernel), a, b, c]

set_option maxRecDepth 100000 in
theorem block_short_30 : nkeccak (digest_short ++ ctrBytes 30) = blocks_short.getD 30 [] := by
  have a : chunk8 ((digest_short ++ ctrBytes 30) ++ Spec.pad 1 136 (List.length (α := Nat) (digest_short ++ ctrBytes 30))) ++ List.replicate 8 0 = [10937671931973578266, 6955058329420517873, 16292189072408554699, 17432403028669289563, 2161727821137838080, 1, 0, 0, 0, 0, 0, 0, 0, 0, 0, 0, 9223372036854775808, 0, 0, 0, 0, 0, 0, 0, 0] := by decide +kernel
  have b : nF [10937671931973578266, 6955058329420517873, 16292189072408554699, 17432403028669289563, 2161727821137838080, 1, 0, 0, 0, 0, 0, 0, 0, 0, 0, 0, 9223372036854775808, 0, 0, 0, 0, 0, 0, 0, 0] = [16258119167531595682, 4571579452228624161, 1326721704608534904, 9482717892100037014, 7705922707020607100, 9170208165138242227, 6787803291463161652, 4482167832402800848, 4680746836879017193, 10773017120382392964, 13944980959299293872, 13672663816042666670, 10764675552058288936, 8804755351387255399, 9117060440270692899, 1449896957440903903, 1109197134663914937, 2545814002713094936, 17429028140671698976, 13897730947282918171, 2050373790254020850, 16772048718858422800, 1583170072569302335, 2409313894338262237, 12724126343853014970] := by decide +kernel
  have c : nbytes (List.take 4 [16258119167531595682, 4571579452228624161, 1326721704608534904, 9482717892100037014, 7705922707020607100, 9170208165138242227, 6787803291463161652, 4482167832402800848, 4680746836879017193, 10773017120382392964, 13944980959299293872, 13672663816042666670, 10764675552058288936, 8804755351387255399, 9117060440270692899, 1449896957440903903, 1109197134663914937, 2545814002713094936, 17429028140671698976, 13897730947282918171, 2050373790254020850, 16772048718858422800, 1583170072569302335, 2409313894338262237, 12724126343853014970]) = blocks_short.getD 30 [] := by decide +kernel
  unfold nkeccak nsponge
  rw [nlanes_chunk _ (by decide +kernel), a, b, c]

set_option maxRecDepth 100000 in
theorem block_short_31 : nkeccak (digest_short ++ ctrBytes 31) = blocks_short.getD 31 [] := by
  have a : chunk8 ((digest_short ++ ctrBytes 31) ++ Spec.pad 1 136 (List.length (α := Nat) (digest_short ++ ctrBytes 31))) ++ List.replicate 8 0 = [10937671931973578266, 6955058329420517873, 16292189072408554699, 17432403028669289563, 2233785415175766016, 1, 0, 0, 0, 0, 0, 0, 0, 0, 0, 0, 9223372036854775808, 0, 0, 0, 0, 0, 0, 0, 0] := by decide +kernel
  have b : nF [10937671931973578266, 6955058329420517873, 16292189072408554699, 17432403028669289563, 2233785415175766016, 1, 0, 0, 0, 0, 0, 0, 0, 0, 0, 0, 9223372036854775808, 0, 0, 0, 0, 0, 0, 0, 0] = [472225302608753915, 17035754855615184997, 12529231317028254322, 11741946884836608254, 704791704986207835, 1365167805469532387, 9789666503239215138, 4192399394165459274, 8252990647058076233, 5004507002202564720, 650188283488706119, 12690071946573472978, 12030592562861048523, 11843509864565623613, 17785871546384945929, 3790606673620458879, 882074890706211316, 17653040441142595519, 14254019363691633477, 17952634709442586831, 2874789995854648145, 16371259049597349938, 17397249491658196959, 15624617369777621288, 15253011613381415766] := by decide +kernel
  have c : nbytes (List.take 4 [472225302608753915, 17035754855615184997, 12529231317028254322, 11741946884836608254, 704791704986207835, 1365167805469532387, 9789666503239215138, 4192399394165459274, 8252990647058076233, 5004507002202564720, 650188283488706119, 12690071946573472978, 12030592562861048523, 11843509864565623613, 17785871546384945929, 3790606673620458879, 882074890706211316, 17653040441142595519, 14254019363691633477, 17952634709442586831, 2874789995854648145, 16371259049597349938, 17397249491658196959, 15624617369777621288, 15253011613381415766]) = blocks_short.getD 31 [] := by decide +kernel
  unfold nkeccak nsponge
  rw [nlanes_chunk _ (by decide +kernel), a, b, c]

set_option maxRecDepth 100000 in
theorem block_short_32 : nkeccak (digest_short ++ ctrBytes 32) = blocks_short.getD 32 [] := by
  have a : chunk8 ((digest_short ++ ctrBytes 32) ++ Spec.pad 1 136 (List.length (α := Nat) (digest_short ++ ctrBytes 32))) ++ List.replicate 8 0 = [10937671931973578266, 6955058329420517873, 16292189072408554699, 17432403028669289563, 2305843009213693952, 1, 0, 0, 0, 0, 0, 0, 0, 0, 0, 0, 9223372036854775808, 0, 0, 0, 0, 0, 0, 0, 0] := by decide +kernel
  have b : nF [10937671931973578266, 6955058329420517873, 16292189072408554699, 17432403028669289563, 2305843009213693952, 1, 0, 0, 0, 0, 0, 0, 0, 0, 0, 0, 9223372036854775808, 0, 0, 0, 0, 0, 0, 0, 0] = [7453313036878059973, 15703127943511103952, 10418473360202650822, 2548714392338929198, 6069360948894057740, 7109229018117674752, 17052417600223399895, 3443326399014040863, 8930096559468161018, 17345912336374365710, 8028529185221063284, 11094566954358191914, 1441618584308472217, 11049077896841105120, 16529660394654065962, 18288536585524534135, 5274495438429302763, 4813011121720188860, 7666914202498381043, 13262518585394590099, 6393595960659534516, 8879413962170448310, 15170995071493983144, 3884653092832245415, 5099936878701594128] := by decide +kernel
  have c : nbytes (List.take 4 [7453313036878059973, 15703127943511103952, 10418473360202650822, 2548714392338929198, 6069360948894057740, 7109229018117674752, 17052417600223399895, 3443326399014040863, 8930096559468161018, 17345912336374365710, 8028529185221063284, 11094566954358191914, 1441618584308472217, 11049077896841105120, 16529660394654065962, 18288536585524534135, 5274495438429302763, 4813011121720188860, 7666914202498381043, 13262518585394590099, 6393595960659534516, 8879413962170448310, 15170995071493983144, 3884653092832245415, 5099936878701594128]) = blocks_short.getD 32 [] := by decide +kernel
  unfold nkeccak nsponge
  rw [nlanes_chunk _ (by decide +kernel), a, b, c]

set_option maxRecDepth 100000 in
theorem block_short_33 : nkeccak (digest_short ++ ctrBytes 33) = blocks_short.getD 33 [] := by
  have a : chunk8 ((digest_short ++ ctrBytes 33) ++ Spec.pad 1 136 (List.length (α := Nat) (digest_short ++ ctrBytes 33))) ++ List.replicate 8 0 = [10937671931973578266, 6955058329420517873, 16292189072408554699, 17432403028669289563, 2377900603251621888, 1, 0, 0, 0, 0, 0, 0, 0, 0, 0, 0, 9223372036854775808, 0, 0, 0, 0, 0, 0, 0, 0] := by decide +kernel
  have b : nF [10937671931973578266, 6955058329420517873, 16292189072408554699, 17432403028669289563, 2377900603251621888, 1, 0, 0, 0, 0, 0, 0, 0, 0, 0, 0, 9223372036854775808, 0, 0, 0, 0, 0, 0, 0, 0] = [5896528562925483188, 1261757700784125138, 10879139095959060017, 13730463262766277447, 10867552194977540703, 4036046483440020634, 3991724058367775367, 5705058387445768319, 2604788938170626013, 3866581523215103082, 5628617810822605982, 17793467787502777688, 2260074327798935530, 4964591390057677019, 4058341988837066322, 16397455169738065653, 15572925358893493952, 10865717775597244218, 9535671254502011751, 3980718384247881691, 4373730821792094774, 5317740540175535222, 1506075926510820125, 12492128065805784921, 7249109229012205897] := by decide +kernel
  have c : nbytes (List.take 4 [5896528562925483188, 1261757700784125138, 10879139095959060017, 13730463262766277447, 10867552194977540703, 4036046483440020634, 3991724058367775367, 5705058387445768319, 2604788938170626013, 3866581523215103082, 5628617810822605982, 17793467787502777688, 2260074327798935530, 4964591390057677019, 4058341988837066322, 16397455169738065653, 15572925358893493952, 10865717775597244218, 9535671254502011751, 3980718384247881691, 4373730821792094774, 5317740540175535222, 1506075926510820125, 12492128065805784921, 7249109229012205897]) = blocks_short.getD 33 [] := by decide +kernel
  unfold nkeccak nsponge
  rw [nlanes_chunk _ (by decide +kernel), a, b, c]

set_option maxRecDepth 100000 in
theorem count_short : (accepted (fun k => (blocks_short.getD (k / 32) []).getD (k % 32) 0) 538).length = 512 := by decide +kernel

/-- A nonce and a message have a point. -/
theorem point_short : ∃ hm, IsPoint (streamByte Keccak256 [5, 5, 5, 5, 5, 5, 5, 5, 5, 5, 5, 5, 5, 5, 5, 5, 5, 5, 5, 5, 5, 5, 5, 5, 5, 5, 5, 5, 5, 5, 5, 5, 5, 5, 5, 5, 5, 5, 5, 5, 6]) 512 hm := by
  refine point_of_blocks _ digest_short blocks_short 538 (by decide) digest_short_eq rfl ?_ (by decide) count_short
  intro i hi
  replace hi : i < 34 := hi
  interval_cases i
  · exact block_short_0
  · exact block_short_1
  · exact block_short_2
  · exact block_short_3
  · exact block_short_4
  · exact block_short_5
  · exact block_short_6
  · exact block_short_7
  · exact block_short_8
  · exact block_short_9
  · exact block_short_10
  · exact block_short_11
  · exact block_short_12
  · exact block_short_13
  · exact block_short_14
  · exact block_short_15
  · exact block_short_16
  · exact block_short_17
  · exact block_short_18
  · exact block_short_19
  · exact block_short_20
  · exact block_short_21
  · exact block_short_22
  · exact block_short_23
  · exact block_short_24
  · exact block_short_25
  · exact block_short_26
  · exact block_short_27
  · exact block_short_28
  · exact block_short_29
  · exact block_short_30
  · exact block_short_31
  · exact block_short_32
  · exact block_short_33

/-- The states of SHAKE256 for the nonce and the message. -/
def states_shake : List (List Nat) := [[2183930956308061260, 17016328302299483006, 10441412465401894985, 12520019012349310500, 4211088574112673664, 13540119070883169408, 1773156879784835341, 6605459060507862466, 6063243477357598235, 8824680560450919826, 9000656475705400437, 701430688473235418, 12824314530037947885, 12841491559837651588, 10322341041622756376, 16666045970996920366, 3185033411331238777, 16631620214922259144, 2915244821487566265, 12068848985092479723, 10819791380512773363, 10553730405088904828, 1521807346436488469, 16729301823300792720, 11206844630409140567],
  [11698752936719097004, 937733054846709119, 5137749245776388697, 13306181814249944097, 8173822904609459306, 17567278908654419114, 13143265548752771223, 16901936483396606727, 3011905759010465815, 7844770878735228382, 11728450268769725545, 6800793527394040623, 3339700601840028540, 14716638754373492109, 3110051240465516432, 481770848219000263, 12719527341485153570, 17812090834265814926, 1228116871083345297, 4761143642004113951, 17688029236712540437, 15726855570155022556, 11263726924556823844, 15494470209308632089, 746765705042213621],
  [17103620325691700252, 7842890792145815326, 10266526048116592413, 8849800609867800672, 17211241744048845971, 5616089962345682988, 16572616790856822508, 55123215913917896, 2209655651405700813, 9371842024682061661, 2470518424890714263, 237554886712149181, 10603564014465065905, 17170425635257419875, 10180887307778082712, 2420534303296944094, 11748065207300912573, 13849603791806314352, 15124009488679472448, 17878125305187989354, 1112767733594896658, 3864983837012475027, 15824620338725737348, 14849301095747240108, 5566132788453785980],
  [2822376734224404204, 9054256089417819152, 13898774469443156045, 12827098278040018748, 3261393328654591043, 17937881810495102101, 784226532523647623, 10081421434322377008, 4614581293223274508, 6820270583210757361, 15312297012688851992, 8604425661239160323, 14330116955451256649, 4683714657927099138, 6989752654561517703, 17991394231019338022, 15067154541494291200, 5926097809690436090, 6668646244445739331, 9967799595213708289, 6194270731806134850, 18152454524216213501, 15013098878458845314, 18434458600723631273, 6245991989018128199],
  [11833392594908662136, 10818768959970966628, 3849660048056454915, 15153678688645469187, 14539005446485285577, 16027025233598239314, 7249557747969782486, 9306221530945252309, 14368469904216734609, 2357158003470704674, 10770422302912364112, 15624229094425954408, 12184418913222537510, 9503314633124445799, 4640534057895853496, 15852000193328697405, 543170106237193181, 4822150540234713065, 8855335514746187501, 12051016611981710188, 13430780618657724216, 12796623002870886034, 11723152638816887656, 3999116692052784119, 5744942570153252394],
  [15914192463311395705, 10322235208868384886, 1406176384543601444, 8608988140389542751, 5082344459520753944, 17663961517165979027, 10219850323864871762, 6384894018134139802, 2050174763017607469, 7802324103535244103, 10120292748220239584, 10458101901264242770, 3359246441348115305, 8747406666208696216, 3280908744563267450, 14250477433618642357, 10657912144073158024, 11775210873323062484, 9832930396380008112, 9358060467784512150, 2714473810728603300, 9132512040659211305, 14337853781824281986, 13207031081776974317, 1005320827158278801],
  [9602122500885112839, 16795744127972041205, 466715611353104734, 15279936173551541068, 10193878899865924688, 14150845005617559366, 9430902555580262265, 1749784093147961685, 6944945731981241790, 2625273800312377541, 6221864282782105269, 6853560142760065938, 365451266133399835, 11617594142296250429, 18351467744743414711, 18244379409215027147, 11884339390698268891, 3803871814487055884, 841155968841177858, 2773485219778485575, 5618663075270697592, 17044635768845505552, 8984303763663886244, 1921245741925050557, 6839807683365976069],
  [17669576738063963992, 3883077047012827237, 271209849793134034, 16901956610821135224, 10135999042145214135, 7501588925135190637, 10735882987265983297, 13549852388945909603, 11039626474014410156, 1464774661746231774, 10807987886015769367, 11386640669211392546, 8685536304955231689, 5401939495730396720, 13769508969721618678, 5414860094260385936, 1562765184180621878, 355373816457571882, 1640634996362753051, 10853175949380218336, 2687220971620688179, 17072831192165753518, 11530187782844104126, 14493999549901421909, 16994196975526867675]]

set_option maxRecDepth 100000 in
theorem state_shake_0 : nsponge 0x1f [5, 5, 5, 5, 5, 5, 5, 5, 5, 5, 5, 5, 5, 5, 5, 5, 5, 5, 5, 5, 5, 5, 5, 5, 5, 5, 5, 5, 5, 5, 5, 5, 5, 5, 5, 5, 5, 5, 5, 5, 6] = states_shake.getD 0 [] := by
  have a : chunk8 ([5, 5, 5, 5, 5, 5, 5, 5, 5, 5, 5, 5, 5, 5, 5, 5, 5, 5, 5, 5, 5, 5, 5, 5, 5, 5, 5, 5, 5, 5, 5, 5, 5, 5, 5, 5, 5, 5, 5, 5, 6] ++ Spec.pad 0x1f 136 (List.length [5, 5, 5, 5, 5, 5, 5, 5, 5, 5, 5, 5, 5, 5, 5, 5, 5, 5, 5, 5, 5, 5, 5, 5, 5, 5, 5, 5, 5, 5, 5, 5, 5, 5, 5, 5, 5, 5, 5, 5, 6])) ++ List.replicate 8 0 = [361700864190383365, 361700864190383365, 361700864190383365, 361700864190383365, 361700864190383365, 7942, 0, 0, 0, 0, 0, 0, 0, 0, 0, 0, 9223372036854775808, 0, 0, 0, 0, 0, 0, 0, 0] := by decide +kernel
  have b : nF [361700864190383365, 361700864190383365, 361700864190383365, 361700864190383365, 361700864190383365, 7942, 0, 0, 0, 0, 0, 0, 0, 0, 0, 0, 9223372036854775808, 0, 0, 0, 0, 0, 0, 0, 0] = states_shake.getD 0 [] := by decide +kernel
  unfold nsponge
  rw [nlanes_chunk _ (by decide +kernel), a, b]

set_option maxRecDepth 100000 in
theorem state_shake_1 : nF (states_shake.getD 0 []) = states_shake.getD 1 [] := by
  have b : nF [2183930956308061260, 17016328302299483006, 10441412465401894985, 12520019012349310500, 4211088574112673664, 13540119070883169408, 1773156879784835341, 6605459060507862466, 6063243477357598235, 8824680560450919826, 9000656475705400437, 701430688473235418, 12824314530037947885, 12841491559837651588, 10322341041622756376, 16666045970996920366, 3185033411331238777, 16631620214922259144, 2915244821487566265, 12068848985092479723, 10819791380512773363, 10553730405088904828, 1521807346436488469, 16729301823300792720, 11206844630409140567] = states_shake.getD 1 [] := by decide +kernel
  exact b

set_option maxRecDepth 100000 in
theorem state_shake_2 : nF (states_shake.getD 1 []) = states_shake.getD 2 [] := by
  have b : nF [11698752936719097004, 937733054846709119, 5137749245776388697, 13306181814249944097, 8173822904609459306, 17567278908654419114, 13143265548752771223, 16901936483396606727, 3011905759010465815, 7844770878735228382, 11728450268769725545, 6800793527394040623, 3339700601840028540, 14716638754373492109, 3110051240465516432, 481770848219000263, 12719527341485153570, 17812090834265814926, 1228116871083345297, 4761143642004113951, 17688029236712540437, 15726855570155022556, 11263726924556823844, 15494470209308632089, 746765705042213621] = states_shake.getD 2 [] := by decide +kernel
  exact b

set_option maxRecDepth 100000 in
theorem state_shake_3 : nF (states_shake.getD 2 []) = states_shake.getD 3 [] := by
  have b : nF [17103620325691700252, 7842890792145815326, 10266526048116592413, 8849800609867800672, 17211241744048845971, 5616089962345682988, 16572616790856822508, 55123215913917896, 2209655651405700813, 9371842024682061661, 2470518424890714263, 237554886712149181, 10603564014465065905, 17170425635257419875, 10180887307778082712, 2420534303296944094, 11748065207300912573, 13849603791806314352, 15124009488679472448, 17878125305187989354, 1112767733594896658, 3864983837012475027, 15824620338725737348, 14849301095747240108, 5566132788453785980] = states_shake.getD 3 [] := by decide +kernel
  exact b

set_option maxRecDepth 100000 in
theorem state_shake_4 : nF (states_shake.getD 3 []) = states_shake.getD 4 [] := by
  have b : nF [2822376734224404204, 9054256089417819152, 13898774469443156045, 12827098278040018748, 3261393328654591043, 17937881810495102101, 784226532523647623, 10081421434322377008, 4614581293223274508, 6820270583210757361, 15312297012688851992, 8604425661239160323, 14330116955451256649, 4683714657927099138, 6989752654561517703, 17991394231019338022, 15067154541494291200, 5926097809690436090, 6668646244445739331, 9967799595213708289, 6194270731806134850, 18152454524216213501, 15013098878458845314, 18434458600723631273, 6245991989018128199] = states_shake.getD 4 [] := by decide +kernel
  exact b

set_option maxRecDepth 100000 in
theorem state_shake_5 : nF (states_shake.getD 4 []) = states_shake.getD 5 [] := by
  have b : nF [11833392594908662136, 10818768959970966628, 3849660048056454915, 15153678688645469187, 14539005446485285577, 16027025233598239314, 7249557747969782486, 9306221530945252309, 14368469904216734609, 2357158003470704674, 10770422302912364112, 15624229094425954408, 12184418913222537510, 9503314633124445799, 4640534057895853496, 15852000193328697405, 543170106237193181, 4822150540234713065, 8855335514746187501, 12051016611981710188, 13430780618657724216, 12796623002870886034, 11723152638816887656, 3999116692052784119, 5744942570153252394] = states_shake.getD 5 [] := by decide +kernel
  exact b

set_option maxRecDepth 100000 in
theorem state_shake_6 : nF (states_shake.getD 5 []) = states_shake.getD 6 [] := by
  have b : nF [15914192463311395705, 10322235208868384886, 1406176384543601444, 8608988140389542751, 5082344459520753944, 17663961517165979027, 10219850323864871762, 6384894018134139802, 2050174763017607469, 7802324103535244103, 10120292748220239584, 10458101901264242770, 3359246441348115305, 8747406666208696216, 3280908744563267450, 14250477433618642357, 10657912144073158024, 11775210873323062484, 9832930396380008112, 9358060467784512150, 2714473810728603300, 9132512040659211305, 14337853781824281986, 13207031081776974317, 1005320827158278801] = states_shake.getD 6 [] := by decide +kernel
  exact b

set_option maxRecDepth 100000 in
theorem state_shake_7 : nF (states_shake.getD 6 []) = states_shake.getD 7 [] := by
  have b : nF [9602122500885112839, 16795744127972041205, 466715611353104734, 15279936173551541068, 10193878899865924688, 14150845005617559366, 9430902555580262265, 1749784093147961685, 6944945731981241790, 2625273800312377541, 6221864282782105269, 6853560142760065938, 365451266133399835, 11617594142296250429, 18351467744743414711, 18244379409215027147, 11884339390698268891, 3803871814487055884, 841155968841177858, 2773485219778485575, 5618663075270697592, 17044635768845505552, 8984303763663886244, 1921245741925050557, 6839807683365976069] = states_shake.getD 7 [] := by decide +kernel
  exact b

theorem state_shake (i : Nat) (h : i < 8) : i.repeat nF (nsponge 0x1f [5, 5, 5, 5, 5, 5, 5, 5, 5, 5, 5, 5, 5, 5, 5, 5, 5, 5, 5, 5, 5, 5, 5, 5, 5, 5, 5, 5, 5, 5, 5, 5, 5, 5, 5, 5, 5, 5, 5, 5, 6]) = states_shake.getD i [] := by
  induction i with
  | zero => exact state_shake_0
  | succ i ih =>
    have ih := ih (by omega)
    have h' : i < 7 := by omega
    simp only [Nat.repeat]
    rw [ih]
    clear ih h
    interval_cases i
    · exact state_shake_1
    · exact state_shake_2
    · exact state_shake_3
    · exact state_shake_4
    · exact state_shake_5
    · exact state_shake_6
    · exact state_shake_7

/-- The point of the nonce and the message, from the states. -/
def hmShake : List Nat := accepted (fun k => (nbytes (states_shake.getD (k / 136) [])).getD (k % 136) 0) 541

set_option maxRecDepth 100000 in
theorem count_shake : hmShake.length = 512 := by decide +kernel

/-- The value of a polynomial at 49, modulo q. -/
def horner (l : List Nat) : Nat := l.foldr (fun c a => (c + 49 * a) % 12289) 0

set_option maxRecDepth 100000 in
/-- The value at the first evaluation point is not the first coefficient. -/
theorem value_shake : horner hmShake ≠ hmShake.getD 0 0 := by decide +kernel

set_option maxRecDepth 100000 in
/-- The first 541 words of the stream give the point. -/
theorem accepted_shake : accepted (shakeByte [5, 5, 5, 5, 5, 5, 5, 5, 5, 5, 5, 5, 5, 5, 5, 5, 5, 5, 5, 5, 5, 5, 5, 5, 5, 5, 5, 5, 5, 5, 5, 5, 5, 5, 5, 5, 5, 5, 5, 5, 6]) 541 = hmShake := by
  have hb : ∀ j < 1082, shakeByte [5, 5, 5, 5, 5, 5, 5, 5, 5, 5, 5, 5, 5, 5, 5, 5, 5, 5, 5, 5, 5, 5, 5, 5, 5, 5, 5, 5, 5, 5, 5, 5, 5, 5, 5, 5, 5, 5, 5, 5, 6] j = (nbytes (states_shake.getD (j / 136) [])).getD (j % 136) 0 := by
    intro j hj
    unfold shakeByte
    rw [spongeByte_one _ _ (by decide), state_shake _ (by omega)]
  rw [accepted_congr _ _ _ hb]
  rfl

/-- The nonce and the message have a SHAKE256 point. -/
theorem point_shake : IsPoint (shakeByte [5, 5, 5, 5, 5, 5, 5, 5, 5, 5, 5, 5, 5, 5, 5, 5, 5, 5, 5, 5, 5, 5, 5, 5, 5, 5, 5, 5, 5, 5, 5, 5, 5, 5, 5, 5, 5, 5, 5, 5, 6]) 512 hmShake := ⟨541, accepted_shake, count_shake⟩

attribute [irreducible] hmShake

end Verif.CRef
