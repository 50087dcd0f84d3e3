import Verif.Lemmas.SgTable.Ops
import Verif.Model.SgTable.T7

/-! Written by tools/gen_sgtable.py. Lines 2532 to 2921. -/

namespace Systre.Sg.Data
set_option maxRecDepth 1000000
set_option maxHeartbeats 0

noncomputable def s331 : Setting := ⟨chars! "Cccm", 3, t0, q! "24 0 0 0 0 24 0 0 0 0 24 0", trs! "0 2 105 90 25 50 106 91 4 10 49 39 86 56 134 116", gens! "2 18687320815856387368178823909286805505 1;105 17342576855639742879858139805557719810 2;25 14673614102390417578512422760905835780 4;4 9335851481537165996061868750157777160 8", words! ";0;1;1 0;2;2 0;2 1;2 1 0;3;3 0;3 1;3 1 0;3 2;3 2 0;3 2 1;3 2 1 0", false⟩
noncomputable def s332 : Setting := ⟨chars! "Amaa", 3, t27, q! "0 0 24 0 24 0 0 0 0 24 0 0", trs! "0 96 29 94 25 97 1 95 35 45 103 39 87 124 59 120", gens! "96 18687320815856387368178823909286805505 1;29 17342576855639742879858139805557719810 2;25 14673614102390417578512422760905835780 4;35 9335851481537165996061868750157777160 8", words! ";0;1;1 0;2;2 0;2 1;2 1 0;3;3 0;3 1;3 1 0;3 2;3 2 0;3 2 1;3 2 1 0", false⟩
noncomputable def s333 : Setting := ⟨chars! "Bbmb", 3, t28, q! "0 24 0 0 0 0 24 0 24 0 0 0", trs! "0 99 101 26 25 100 102 6 42 45 49 92 89 128 130 53", gens! "99 18687320815856387368178823909286805505 1;101 17342576855639742879858139805557719810 2;25 14673614102390417578512422760905835780 4;42 9335851481537165996061868750157777160 8", words! ";0;1;1 0;2;2 0;2 1;2 1 0;3;3 0;3 1;3 1 0;3 2;3 2 0;3 2 1;3 2 1 0", false⟩
noncomputable def b84 : Block := ⟨s331, [⟨s332, nats! "3 1 4 8 0 0 0", nats! "2 3 4 8 0 0 0"⟩, ⟨s333, nats! "2 3 4 8 0 0 0", nats! "3 1 4 8 0 0 0"⟩]⟩
noncomputable def s334 : Setting := ⟨chars! "Cmma", 3, t0, q! "24 0 0 0 0 24 0 0 0 0 24 0", trs! "0 96 29 94 25 97 1 95 4 176 47 177 86 57 5 138", gens! "96 18687320815856387368178823909286805505 1;29 17342576855639742879858139805557719810 2;25 14673614102390417578512422760905835780 4;4 9335851481537165996061868750157777160 8", words! ";0;1;1 0;2;2 0;2 1;2 1 0;3;3 0;3 1;3 1 0;3 2;3 2 0;3 2 1;3 2 1 0", false⟩
noncomputable def s335 : Setting := ⟨chars! "Cmmb", 3, t72, q! "24 0 0 6 0 24 0 6 0 0 24 0", trs! "0 96 32 26 25 97 85 6 4 176 178 33 86 57 3 9", gens! "96 18687320815856387368178823909286805505 1;32 17342576855639742879858139805557719810 2;25 14673614102390417578512422760905835780 4;4 9335851481537165996061868750157777160 8", words! ";0;1;1 0;2;2 0;2 1;2 1 0;3;3 0;3 1;3 1 0;3 2;3 2 0;3 2 1;3 2 1 0", false⟩
noncomputable def s336 : Setting := ⟨chars! "Abmm", 3, t27, q! "0 0 24 0 24 0 0 0 0 24 0 0", trs! "0 99 101 26 25 100 102 6 35 179 180 36 87 139 60 61", gens! "99 18687320815856387368178823909286805505 1;101 17342576855639742879858139805557719810 2;25 14673614102390417578512422760905835780 4;35 9335851481537165996061868750157777160 8", words! ";0;1;1 0;2;2 0;2 1;2 1 0;3;3 0;3 1;3 1 0;3 2;3 2 0;3 2 1;3 2 1 0", false⟩
noncomputable def s337 : Setting := ⟨chars! "Acmm", 3, t34, q! "0 0 24 0 0 24 0 0 -24 0 0 0", trs! "0 2 101 30 25 50 102 83 35 40 180 181 87 63 60 51", gens! "2 18687320815856387368178823909286805505 1;101 17342576855639742879858139805557719810 2;25 14673614102390417578512422760905835780 4;35 9335851481537165996061868750157777160 8", words! ";0;1;1 0;2;2 0;2 1;2 1 0;3;3 0;3 1;3 1 0;3 2;3 2 0;3 2 1;3 2 1 0", false⟩
noncomputable def s338 : Setting := ⟨chars! "Bmcm", 3, t28, q! "0 24 0 0 0 0 24 0 24 0 0 0", trs! "0 2 32 94 25 50 85 95 42 43 182 183 89 64 60 51", gens! "2 18687320815856387368178823909286805505 1;32 17342576855639742879858139805557719810 2;25 14673614102390417578512422760905835780 4;42 9335851481537165996061868750157777160 8", words! ";0;1;1 0;2;2 0;2 1;2 1 0;3;3 0;3 1;3 1 0;3 2;3 2 0;3 2 1;3 2 1 0", false⟩
noncomputable def s339 : Setting := ⟨chars! "Bmam", 3, t41, q! "-24 0 0 0 0 0 24 0 0 24 0 0", trs! "0 96 29 94 25 97 1 95 42 184 46 183 89 139 66 51", gens! "96 18687320815856387368178823909286805505 1;29 17342576855639742879858139805557719810 2;25 14673614102390417578512422760905835780 4;42 9335851481537165996061868750157777160 8", words! ";0;1;1 0;2;2 0;2 1;2 1 0;3;3 0;3 1;3 1 0;3 2;3 2 0;3 2 1;3 2 1 0", false⟩
noncomputable def b85 : Block := ⟨s334, [⟨s335, nats! "9 10 12 8 0 0 0", nats! "9 10 12 8 0 0 0"⟩, ⟨s336, nats! "3 1 4 8 0 0 0", nats! "2 3 4 8 0 0 0"⟩, ⟨s337, nats! "2 9 4 8 0 0 0", nats! "10 1 4 8 0 0 0"⟩, ⟨s338, nats! "2 11 4 8 0 0 0", nats! "11 1 4 8 0 0 0"⟩, ⟨s339, nats! "3 2 4 8 0 0 0", nats! "3 2 4 8 0 0 0"⟩]⟩
noncomputable def s340 : Setting := ⟨chars! "Ccca:2", 3, t0, q! "24 0 0 0 0 24 0 0 0 0 24 0", trs! "0 96 46 90 25 97 115 91 4 176 131 39 86 57 132 116", gens! "96 18687320815856387368178823909286805505 1;46 17342576855639742879858139805557719810 2;25 14673614102390417578512422760905835780 4;4 9335851481537165996061868750157777160 8", words! ";0;1;1 0;2;2 0;2 1;2 1 0;3;3 0;3 1;3 1 0;3 2;3 2 0;3 2 1;3 2 1 0", false⟩
noncomputable def s341 : Setting := ⟨chars! "Ccca:1", 3, t185, q! "24 0 0 -12 0 24 0 -6 0 0 24 6", trs! "0 2 29 26 89 64 66 53 4 10 47 33 186 75 79 71", gens! "2 18687320815856387368178823909286805505 1;29 17342576855639742879858139805557719810 2;89 14673614102390417578512422760905835780 4;4 9335851481537165996061868750157777160 8", words! ";0;1;1 0;2;2 0;2 1;2 1 0;3;3 0;3 1;3 1 0;3 2;3 2 0;3 2 1;3 2 1 0", false⟩
noncomputable def s342 : Setting := ⟨chars! "Cccb:1", 3, t185, q! "24 0 0 -12 0 24 0 -6 0 0 24 6", trs! "0 2 29 26 89 64 66 53 4 10 47 33 186 75 79 71", gens! "2 18687320815856387368178823909286805505 1;29 17342576855639742879858139805557719810 2;89 14673614102390417578512422760905835780 4;4 9335851481537165996061868750157777160 8", words! ";0;1;1 0;2;2 0;2 1;2 1 0;3;3 0;3 1;3 1 0;3 2;3 2 0;3 2 1;3 2 1 0", false⟩
noncomputable def s343 : Setting := ⟨chars! "Cccb:2", 3, t167, q! "24 0 0 -6 0 24 0 -6 0 0 24 0", trs! "0 96 105 92 25 97 106 93 4 176 49 119 86 57 134 122", gens! "96 18687320815856387368178823909286805505 1;105 17342576855639742879858139805557719810 2;25 14673614102390417578512422760905835780 4;4 9335851481537165996061868750157777160 8", words! ";0;1;1 0;2;2 0;2 1;2 1 0;3;3 0;3 1;3 1 0;3 2;3 2 0;3 2 1;3 2 1 0", false⟩
noncomputable def s344 : Setting := ⟨chars! "Abaa:1", 3, t187, q! "0 0 24 6 24 0 0 -12 0 24 0 -6", trs! "0 2 29 26 86 56 5 9 35 40 103 36 188 77 82 69", gens! "2 18687320815856387368178823909286805505 1;29 17342576855639742879858139805557719810 2;86 14673614102390417578512422760905835780 4;35 9335851481537165996061868750157777160 8", words! ";0;1;1 0;2;2 0;2 1;2 1 0;3;3 0;3 1;3 1 0;3 2;3 2 0;3 2 1;3 2 1 0", false⟩
noncomputable def s345 : Setting := ⟨chars! "Abaa:2", 3, t27, q! "0 0 24 0 24 0 0 0 0 24 0 0", trs! "0 96 101 33 25 97 102 109 35 45 180 117 87 124 60 118", gens! "96 18687320815856387368178823909286805505 1;101 17342576855639742879858139805557719810 2;25 14673614102390417578512422760905835780 4;35 9335851481537165996061868750157777160 8", words! ";0;1;1 0;2;2 0;2 1;2 1 0;3;3 0;3 1;3 1 0;3 2;3 2 0;3 2 1;3 2 1 0", false⟩
noncomputable def s346 : Setting := ⟨chars! "Acaa:1", 3, t187, q! "0 0 24 6 24 0 0 -12 0 24 0 -6", trs! "0 2 29 26 86 56 5 9 35 40 103 36 188 77 82 69", gens! "2 18687320815856387368178823909286805505 1;29 17342576855639742879858139805557719810 2;86 14673614102390417578512422760905835780 4;35 9335851481537165996061868750157777160 8", words! ";0;1;1 0;2;2 0;2 1;2 1 0;3;3 0;3 1;3 1 0;3 2;3 2 0;3 2 1;3 2 1 0", false⟩
noncomputable def s347 : Setting := ⟨chars! "Acaa:2", 3, t34, q! "0 0 24 0 0 24 0 0 -24 0 0 0", trs! "0 10 101 94 25 98 102 95 35 127 180 39 87 129 60 120", gens! "10 18687320815856387368178823909286805505 1;101 17342576855639742879858139805557719810 2;25 14673614102390417578512422760905835780 4;35 9335851481537165996061868750157777160 8", words! ";0;1;1 0;2;2 0;2 1;2 1 0;3;3 0;3 1;3 1 0;3 2;3 2 0;3 2 1;3 2 1 0", false⟩
noncomputable def s348 : Setting := ⟨chars! "Bbcb:1", 3, t189, q! "0 24 0 -6 0 0 24 6 24 0 0 -12", trs! "0 2 29 26 86 56 5 9 42 43 46 92 186 75 79 71", gens! "2 18687320815856387368178823909286805505 1;29 17342576855639742879858139805557719810 2;86 14673614102390417578512422760905835780 4;42 9335851481537165996061868750157777160 8", words! ";0;1;1 0;2;2 0;2 1;2 1 0;3;3 0;3 1;3 1 0;3 2;3 2 0;3 2 1;3 2 1 0", false⟩
noncomputable def s349 : Setting := ⟨chars! "Bbcb:2", 3, t28, q! "0 24 0 0 0 0 24 0 24 0 0 0", trs! "0 10 101 94 25 98 102 95 42 125 49 183 89 126 130 51", gens! "10 18687320815856387368178823909286805505 1;101 17342576855639742879858139805557719810 2;25 14673614102390417578512422760905835780 4;42 9335851481537165996061868750157777160 8", words! ";0;1;1 0;2;2 0;2 1;2 1 0;3;3 0;3 1;3 1 0;3 2;3 2 0;3 2 1;3 2 1 0", false⟩
noncomputable def s350 : Setting := ⟨chars! "Bbab:1", 3, t189, q! "0 24 0 -6 0 0 24 6 24 0 0 -12", trs! "0 2 29 26 86 56 5 9 42 43 46 92 186 75 79 71", gens! "2 18687320815856387368178823909286805505 1;29 17342576855639742879858139805557719810 2;86 14673614102390417578512422760905835780 4;42 9335851481537165996061868750157777160 8", words! ";0;1;1 0;2;2 0;2 1;2 1 0;3;3 0;3 1;3 1 0;3 2;3 2 0;3 2 1;3 2 1 0", false⟩
noncomputable def s351 : Setting := ⟨chars! "Bbab:2", 3, t41, q! "-24 0 0 0 0 0 24 0 0 24 0 0", trs! "0 99 47 94 25 100 113 95 42 45 131 183 89 128 135 51", gens! "99 18687320815856387368178823909286805505 1;47 17342576855639742879858139805557719810 2;25 14673614102390417578512422760905835780 4;42 9335851481537165996061868750157777160 8", words! ";0;1;1 0;2;2 0;2 1;2 1 0;3;3 0;3 1;3 1 0;3 2;3 2 0;3 2 1;3 2 1 0", false⟩
noncomputable def b86 : Block := ⟨s340, [⟨s341, nats! "9 10 12 8 0 0 0", nats! "9 10 12 8 0 0 0"⟩, ⟨s342, nats! "9 10 12 8 0 0 0", nats! "9 10 12 8 0 0 0"⟩, ⟨s343, nats! "9 10 12 8 0 0 0", nats! "9 10 12 8 0 0 0"⟩, ⟨s344, nats! "3 9 12 8 0 0 0", nats! "10 11 12 8 0 0 0"⟩, ⟨s345, nats! "3 1 4 8 0 0 0", nats! "2 3 4 8 0 0 0"⟩, ⟨s346, nats! "3 9 12 8 0 0 0", nats! "10 11 12 8 0 0 0"⟩, ⟨s347, nats! "10 9 4 8 0 0 0", nats! "10 9 4 8 0 0 0"⟩, ⟨s348, nats! "10 3 4 8 0 0 0", nats! "11 9 4 8 0 0 0"⟩, ⟨s349, nats! "10 3 4 8 0 0 0", nats! "11 9 4 8 0 0 0"⟩, ⟨s350, nats! "10 3 4 8 0 0 0", nats! "11 9 4 8 0 0 0"⟩, ⟨s351, nats! "3 2 4 8 0 0 0", nats! "3 2 4 8 0 0 0"⟩]⟩
noncomputable def s352 : Setting := ⟨chars! "Fmmm", 3, t0, q! "24 0 0 0 0 24 0 0 0 0 24 0", trs! "0 2 29 26 25 50 1 6 35 40 103 36 87 63 59 61 42 43 46 92 89 64 66 53 4 10 47 33 86 56 5 9", gens! "2 13624351749991550511698068748508164879751926042094138470685627695275035525121 1;29 13166759092306394416157877068199540937639118084244700666369882435675001717506 2;25 12258558129406889357693882021433616347876454848349468758562512450856520385796 4;35 10442211630720833064043534504749304869921366533932581585147582885864128776456 8;42 6809518635040324971929803101472088575681370633994377158765812195969289294096 16", words! ";0;1;1 0;2;2 0;2 1;2 1 0;3;3 0;3 1;3 1 0;3 2;3 2 0;3 2 1;3 2 1 0;4;4 0;4 1;4 1 0;4 2;4 2 0;4 2 1;4 2 1 0;4 3;4 3 0;4 3 1;4 3 1 0;4 3 2;4 3 2 0;4 3 2 1;4 3 2 1 0", false⟩
noncomputable def b87 : Block := ⟨s352, []⟩

noncomputable def items7 : List Item := [
  .block b84,
  .block b85,
  .block b86,
  .block b87]

theorem good7 : allB (Item.goodB lat) items7 = true := by decide +kernel

theorem text7 : Table.sgLines7 = (items7.flatMap Item.lines).map String.ofList := by krfl

end Systre.Sg.Data
