import Verif.Lemmas.PrimeCert
import Verif.Model.Curves

/-!
# The four moduli are prime

Generated Pratt certificates: every `decide +kernel` below is one evaluation of Lucas' criterion by
the kernel.
-/

namespace Verif

theorem prime_2 : Nat.Prime 2 := by norm_num

theorem prime_3 : Nat.Prime 3 := by norm_num

theorem prime_5 : Nat.Prime 5 := by norm_num

theorem prime_17 : Nat.Prime 17 := by norm_num

theorem prime_257 : Nat.Prime 257 := by norm_num

theorem prime_641 : Nat.Prime 641 := by norm_num

theorem prime_1531 : Nat.Prime 1531 := by norm_num

theorem prime_65537 : Nat.Prime 65537 := by norm_num

theorem prime_490463 : Nat.Prime 490463 := by norm_num

theorem prime_17449 : Nat.Prime 17449 := by norm_num

theorem prime_6700417 :
    Nat.Prime 6700417 := by
  apply prime_of_pratt _ 5 [2, 2, 2, 2, 2, 2, 2, 3, 17449]
  · simp only [List.forall_mem_cons]
    exact ⟨prime_2, prime_2, prime_2, prime_2, prime_2, prime_2, prime_2, prime_3, prime_17449, by simp⟩
  · decide +kernel

theorem prime_2411 : Nat.Prime 2411 := by norm_num

theorem prime_7 : Nat.Prime 7 := by norm_num

theorem prime_11 : Nat.Prime 11 := by norm_num

theorem prime_23 : Nat.Prime 23 := by norm_num

theorem prime_107 : Nat.Prime 107 := by norm_num

theorem prime_3769 : Nat.Prime 3769 := by norm_num

theorem prime_204061199 :
    Nat.Prime 204061199 := by
  apply prime_of_pratt _ 11 [2, 11, 23, 107, 3769]
  · simp only [List.forall_mem_cons]
    exact ⟨prime_2, prime_11, prime_23, prime_107, prime_3769, by simp⟩
  · decide +kernel

theorem prime_34282281433 :
    Nat.Prime 34282281433 := by
  apply prime_of_pratt _ 17 [2, 2, 2, 3, 7, 204061199]
  · simp only [List.forall_mem_cons]
    exact ⟨prime_2, prime_2, prime_2, prime_3, prime_7, prime_204061199, by simp⟩
  · decide +kernel

theorem prime_53 : Nat.Prime 53 := by norm_num

theorem prime_173 : Nat.Prime 173 := by norm_num

theorem prime_197 : Nat.Prime 197 := by norm_num

theorem prime_3677 : Nat.Prime 3677 := by norm_num

theorem prime_66417393611 :
    Nat.Prime 66417393611 := by
  apply prime_of_pratt _ 6 [2, 5, 53, 173, 197, 3677]
  · simp only [List.forall_mem_cons]
    exact ⟨prime_2, prime_5, prime_53, prime_173, prime_197, prime_3677, by simp⟩
  · decide +kernel

theorem prime_11290956913871 :
    Nat.Prime 11290956913871 := by
  apply prime_of_pratt _ 13 [2, 5, 17, 66417393611]
  · simp only [List.forall_mem_cons]
    exact ⟨prime_2, prime_5, prime_17, prime_66417393611, by simp⟩
  · decide +kernel

theorem prime_18169 : Nat.Prime 18169 := by norm_num

theorem prime_78283 : Nat.Prime 78283 := by norm_num

theorem prime_704251 : Nat.Prime 704251 := by norm_num

theorem prime_46076956964474543 :
    Nat.Prime 46076956964474543 := by
  apply prime_of_pratt _ 5 [2, 23, 18169, 78283, 704251]
  · simp only [List.forall_mem_cons]
    exact ⟨prime_2, prime_23, prime_18169, prime_78283, prime_704251, by simp⟩
  · decide +kernel

theorem prime_774023187263532362759620327192479577272145303 :
    Nat.Prime 774023187263532362759620327192479577272145303 := by
  apply prime_of_pratt _ 3 [2, 3, 3, 2411, 34282281433, 11290956913871, 46076956964474543]
  · simp only [List.forall_mem_cons]
    exact ⟨prime_2, prime_3, prime_3, prime_2411, prime_34282281433, prime_11290956913871, prime_46076956964474543, by simp⟩
  · decide +kernel

theorem prime_835945042244614951780389953367877943453916927241 :
    Nat.Prime 835945042244614951780389953367877943453916927241 := by
  apply prime_of_pratt _ 11 [2, 2, 2, 3, 3, 3, 5, 774023187263532362759620327192479577272145303]
  · simp only [List.forall_mem_cons]
    exact ⟨prime_2, prime_2, prime_2, prime_3, prime_3, prime_3, prime_5, prime_774023187263532362759620327192479577272145303, by simp⟩
  · decide +kernel

theorem prime_115792089210356248762697446949407573530086143415290314195533631308867097853951 :
    Nat.Prime 115792089210356248762697446949407573530086143415290314195533631308867097853951 := by
  apply prime_of_pratt _ 6 [2, 3, 5, 5, 17, 257, 641, 1531, 65537, 490463, 6700417, 835945042244614951780389953367877943453916927241]
  · simp only [List.forall_mem_cons]
    exact ⟨prime_2, prime_3, prime_5, prime_5, prime_17, prime_257, prime_641, prime_1531, prime_65537, prime_490463, prime_6700417, prime_835945042244614951780389953367877943453916927241, by simp⟩
  · decide +kernel

theorem prime_71 : Nat.Prime 71 := by norm_num

theorem prime_131 : Nat.Prime 131 := by norm_num

theorem prime_373 : Nat.Prime 373 := by norm_num

theorem prime_3407 : Nat.Prime 3407 := by norm_num

theorem prime_38189 : Nat.Prime 38189 := by norm_num

theorem prime_229 : Nat.Prime 229 := by norm_num

theorem prime_1201 : Nat.Prime 1201 := by norm_num

theorem prime_9350987 :
    Nat.Prime 9350987 := by
  apply prime_of_pratt _ 2 [2, 17, 229, 1201]
  · simp only [List.forall_mem_cons]
    exact ⟨prime_2, prime_17, prime_229, prime_1201, by simp⟩
  · decide +kernel

theorem prime_187019741 :
    Nat.Prime 187019741 := by
  apply prime_of_pratt _ 2 [2, 2, 5, 9350987]
  · simp only [List.forall_mem_cons]
    exact ⟨prime_2, prime_2, prime_5, prime_9350987, by simp⟩
  · decide +kernel

theorem prime_29 : Nat.Prime 29 := by norm_num

theorem prime_311 : Nat.Prime 311 := by norm_num

theorem prime_311245691 :
    Nat.Prime 311245691 := by
  apply prime_of_pratt _ 2 [2, 5, 7, 17, 29, 29, 311]
  · simp only [List.forall_mem_cons]
    exact ⟨prime_2, prime_5, prime_7, prime_17, prime_29, prime_29, prime_311, by simp⟩
  · decide +kernel

theorem prime_622491383 :
    Nat.Prime 622491383 := by
  apply prime_of_pratt _ 5 [2, 311245691]
  · simp only [List.forall_mem_cons]
    exact ⟨prime_2, prime_311245691, by simp⟩
  · decide +kernel

theorem prime_126241 : Nat.Prime 126241 := by norm_num

theorem prime_19 : Nat.Prime 19 := by norm_num

theorem prime_104471 : Nat.Prime 104471 := by norm_num

theorem prime_3969899 :
    Nat.Prime 3969899 := by
  apply prime_of_pratt _ 2 [2, 19, 104471]
  · simp only [List.forall_mem_cons]
    exact ⟨prime_2, prime_19, prime_104471, by simp⟩
  · decide +kernel

theorem prime_1002328039319 :
    Nat.Prime 1002328039319 := by
  apply prime_of_pratt _ 19 [2, 126241, 3969899]
  · simp only [List.forall_mem_cons]
    exact ⟨prime_2, prime_126241, prime_3969899, by simp⟩
  · decide +kernel

theorem prime_1297 : Nat.Prime 1297 := by norm_num

theorem prime_16879 : Nat.Prime 16879 := by norm_num

theorem prime_43 : Nat.Prime 43 := by norm_num

theorem prime_127 : Nat.Prime 127 := by norm_num

theorem prime_3023 : Nat.Prime 3023 := by norm_num

theorem prime_41 : Nat.Prime 41 := by norm_num

theorem prime_155317 : Nat.Prime 155317 := by norm_num

theorem prime_191039911 :
    Nat.Prime 191039911 := by
  apply prime_of_pratt _ 3 [2, 3, 5, 41, 155317]
  · simp only [List.forall_mem_cons]
    exact ⟨prime_2, prime_3, prime_5, prime_41, prime_155317, by simp⟩
  · decide +kernel

theorem prime_208150935158385979 :
    Nat.Prime 208150935158385979 := by
  apply prime_of_pratt _ 2 [2, 3, 11, 43, 127, 3023, 191039911]
  · simp only [List.forall_mem_cons]
    exact ⟨prime_2, prime_3, prime_11, prime_43, prime_127, prime_3023, prime_191039911, by simp⟩
  · decide +kernel

theorem prime_2624747550333869278416773953 :
    Nat.Prime 2624747550333869278416773953 := by
  apply prime_of_pratt _ 7 [2, 2, 2, 2, 2, 2, 3, 3, 1297, 16879, 208150935158385979]
  · simp only [List.forall_mem_cons]
    exact ⟨prime_2, prime_2, prime_2, prime_2, prime_2, prime_2, prime_3, prime_3, prime_1297, prime_16879, prime_208150935158385979, by simp⟩
  · decide +kernel

theorem prime_115792089210356248762697446949407573529996955224135760342422259061068512044369 :
    Nat.Prime 115792089210356248762697446949407573529996955224135760342422259061068512044369 := by
  apply prime_of_pratt _ 7 [2, 2, 2, 2, 3, 71, 131, 373, 3407, 17449, 38189, 187019741, 622491383, 1002328039319, 2624747550333869278416773953]
  · simp only [List.forall_mem_cons]
    exact ⟨prime_2, prime_2, prime_2, prime_2, prime_3, prime_71, prime_131, prime_373, prime_3407, prime_17449, prime_38189, prime_187019741, prime_622491383, prime_1002328039319, prime_2624747550333869278416773953, by simp⟩
  · decide +kernel

theorem prime_71693 : Nat.Prime 71693 := by norm_num

theorem prime_37 : Nat.Prime 37 := by norm_num

theorem prime_3491 : Nat.Prime 3491 := by norm_num

theorem prime_1033337 :
    Nat.Prime 1033337 := by
  apply prime_of_pratt _ 3 [2, 2, 2, 37, 3491]
  · simp only [List.forall_mem_cons]
    exact ⟨prime_2, prime_2, prime_2, prime_37, prime_3491, by simp⟩
  · decide +kernel

theorem prime_269 : Nat.Prime 269 := by norm_num

theorem prime_29179 : Nat.Prime 29179 := by norm_num

theorem prime_15698303 :
    Nat.Prime 15698303 := by
  apply prime_of_pratt _ 5 [2, 269, 29179]
  · simp only [List.forall_mem_cons]
    exact ⟨prime_2, prime_269, prime_29179, by simp⟩
  · decide +kernel

theorem prime_59 : Nat.Prime 59 := by norm_num

theorem prime_1013 : Nat.Prime 1013 := by norm_num

theorem prime_2749283 :
    Nat.Prime 2749283 := by
  apply prime_of_pratt _ 2 [2, 23, 59, 1013]
  · simp only [List.forall_mem_cons]
    exact ⟨prime_2, prime_23, prime_59, prime_1013, by simp⟩
  · decide +kernel

theorem prime_65982793 :
    Nat.Prime 65982793 := by
  apply prime_of_pratt _ 5 [2, 2, 2, 3, 2749283]
  · simp only [List.forall_mem_cons]
    exact ⟨prime_2, prime_2, prime_2, prime_3, prime_2749283, by simp⟩
  · decide +kernel

theorem prime_419 : Nat.Prime 419 := by norm_num

theorem prime_4657 : Nat.Prime 4657 := by norm_num

theorem prime_5994341377 :
    Nat.Prime 5994341377 := by
  apply prime_of_pratt _ 5 [2, 2, 2, 2, 2, 2, 2, 2, 2, 2, 3, 419, 4657]
  · simp only [List.forall_mem_cons]
    exact ⟨prime_2, prime_2, prime_2, prime_2, prime_2, prime_2, prime_2, prime_2, prime_2, prime_2, prime_3, prime_419, prime_4657, by simp⟩
  · decide +kernel

theorem prime_9533 : Nat.Prime 9533 := by norm_num

theorem prime_260441 : Nat.Prime 260441 := by norm_num

theorem prime_1562647 :
    Nat.Prime 1562647 := by
  apply prime_of_pratt _ 3 [2, 3, 260441]
  · simp only [List.forall_mem_cons]
    exact ⟨prime_2, prime_3, prime_260441, by simp⟩
  · decide +kernel

theorem prime_46879411 :
    Nat.Prime 46879411 := by
  apply prime_of_pratt _ 2 [2, 3, 5, 1562647]
  · simp only [List.forall_mem_cons]
    exact ⟨prime_2, prime_3, prime_5, prime_1562647, by simp⟩
  · decide +kernel

theorem prime_281276467 :
    Nat.Prime 281276467 := by
  apply prime_of_pratt _ 3 [2, 3, 46879411]
  · simp only [List.forall_mem_cons]
    exact ⟨prime_2, prime_3, prime_46879411, by simp⟩
  · decide +kernel

theorem prime_1687658803 :
    Nat.Prime 1687658803 := by
  apply prime_of_pratt _ 2 [2, 3, 281276467]
  · simp only [List.forall_mem_cons]
    exact ⟨prime_2, prime_3, prime_281276467, by simp⟩
  · decide +kernel

theorem prime_128262069029 :
    Nat.Prime 128262069029 := by
  apply prime_of_pratt _ 2 [2, 2, 19, 1687658803]
  · simp only [List.forall_mem_cons]
    exact ⟨prime_2, prime_2, prime_19, prime_1687658803, by simp⟩
  · decide +kernel

theorem prime_22009001472962227 :
    Nat.Prime 22009001472962227 := by
  apply prime_of_pratt _ 5 [2, 3, 3, 9533, 128262069029]
  · simp only [List.forall_mem_cons]
    exact ⟨prime_2, prime_3, prime_3, prime_9533, prime_128262069029, by simp⟩
  · decide +kernel

theorem prime_13043 : Nat.Prime 13043 := by norm_num

theorem prime_499067 : Nat.Prime 499067 := by norm_num

theorem prime_54897371 :
    Nat.Prime 54897371 := by
  apply prime_of_pratt _ 6 [2, 5, 11, 499067]
  · simp only [List.forall_mem_cons]
    exact ⟨prime_2, prime_5, prime_11, prime_499067, by simp⟩
  · decide +kernel

theorem prime_6848045079628454069 :
    Nat.Prime 6848045079628454069 := by
  apply prime_of_pratt _ 2 [2, 2, 53, 197, 229, 13043, 54897371]
  · simp only [List.forall_mem_cons]
    exact ⟨prime_2, prime_2, prime_53, prime_197, prime_229, prime_13043, prime_54897371, by simp⟩
  · decide +kernel

theorem prime_16798108731015832284940804142231733909889187121439069848933715426072753864723 :
    Nat.Prime 16798108731015832284940804142231733909889187121439069848933715426072753864723 := by
  apply prime_of_pratt _ 3 [2, 3, 3, 3, 7, 641, 71693, 1033337, 15698303, 65982793, 5994341377, 22009001472962227, 6848045079628454069]
  · simp only [List.forall_mem_cons]
    exact ⟨prime_2, prime_3, prime_3, prime_3, prime_7, prime_641, prime_71693, prime_1033337, prime_15698303, prime_65982793, prime_5994341377, prime_22009001472962227, prime_6848045079628454069, by simp⟩
  · decide +kernel

theorem prime_16843 : Nat.Prime 16843 := by norm_num

theorem prime_140977 : Nat.Prime 140977 := by norm_num

theorem prime_13 : Nat.Prime 13 := by norm_num

theorem prime_827 : Nat.Prime 827 := by norm_num

theorem prime_73 : Nat.Prime 73 := by norm_num

theorem prime_25969 : Nat.Prime 25969 := by norm_num

theorem prime_103393 : Nat.Prime 103393 := by norm_num

theorem prime_1176035613847 :
    Nat.Prime 1176035613847 := by
  apply prime_of_pratt _ 3 [2, 3, 73, 25969, 103393]
  · simp only [List.forall_mem_cons]
    exact ⟨prime_2, prime_3, prime_73, prime_25969, prime_103393, by simp⟩
  · decide +kernel

theorem prime_101148471075752777 :
    Nat.Prime 101148471075752777 := by
  apply prime_of_pratt _ 3 [2, 2, 2, 13, 827, 1176035613847]
  · simp only [List.forall_mem_cons]
    exact ⟨prime_2, prime_2, prime_2, prime_13, prime_827, prime_1176035613847, by simp⟩
  · decide +kernel

theorem prime_4013 : Nat.Prime 4013 := by norm_num

theorem prime_929 : Nat.Prime 929 := by norm_num

theorem prime_1545857 :
    Nat.Prime 1545857 := by
  apply prime_of_pratt _ 3 [2, 2, 2, 2, 2, 2, 2, 13, 929]
  · simp only [List.forall_mem_cons]
    exact ⟨prime_2, prime_2, prime_2, prime_2, prime_2, prime_2, prime_2, prime_13, prime_929, by simp⟩
  · decide +kernel

theorem prime_61 : Nat.Prime 61 := by norm_num

theorem prime_883 : Nat.Prime 883 := by norm_num

theorem prime_1069 : Nat.Prime 1069 := by norm_num

theorem prime_159793 : Nat.Prime 159793 := by norm_num

theorem prime_14334859726775219 :
    Nat.Prime 14334859726775219 := by
  apply prime_of_pratt _ 2 [2, 19, 41, 61, 883, 1069, 159793]
  · simp only [List.forall_mem_cons]
    exact ⟨prime_2, prime_19, prime_41, prime_61, prime_883, prime_1069, prime_159793, by simp⟩
  · decide +kernel

theorem prime_1254043595354617963043866617659 :
    Nat.Prime 1254043595354617963043866617659 := by
  apply prime_of_pratt _ 2 [2, 11, 641, 4013, 1545857, 14334859726775219]
  · simp only [List.forall_mem_cons]
    exact ⟨prime_2, prime_11, prime_641, prime_4013, prime_1545857, prime_14334859726775219, by simp⟩
  · decide +kernel

theorem prime_16798108731015832284940804142231733909759579603404752749028378864165570215949 :
    Nat.Prime 16798108731015832284940804142231733909759579603404752749028378864165570215949 := by
  apply prime_of_pratt _ 2 [2, 2, 3, 7, 641, 16843, 140977, 15698303, 65982793, 101148471075752777, 1254043595354617963043866617659]
  · simp only [List.forall_mem_cons]
    exact ⟨prime_2, prime_2, prime_3, prime_7, prime_641, prime_16843, prime_140977, prime_15698303, prime_65982793, prime_101148471075752777, prime_1254043595354617963043866617659, by simp⟩
  · decide +kernel

theorem secpP_prime : secpP.Prime := prime_115792089210356248762697446949407573530086143415290314195533631308867097853951
theorem secpN_prime : secpN.Prime := prime_115792089210356248762697446949407573529996955224135760342422259061068512044369
theorem bn254P_prime : bn254P.Prime := prime_16798108731015832284940804142231733909889187121439069848933715426072753864723
theorem bn254N_prime : bn254N.Prime := prime_16798108731015832284940804142231733909759579603404752749028378864165570215949

instance : Fact secpP.Prime := ⟨secpP_prime⟩
instance : Fact secpN.Prime := ⟨secpN_prime⟩
instance : Fact bn254P.Prime := ⟨bn254P_prime⟩
instance : Fact bn254N.Prime := ⟨bn254N_prime⟩

end Verif
