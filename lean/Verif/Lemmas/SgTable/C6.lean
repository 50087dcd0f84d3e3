import Verif.Lemmas.SgTable.Ops
import Verif.Model.SgTable.T6

/-! Written by tools/gen_sgtable.py. Lines 2097 to 2531. -/

namespace Systre.Sg.Data
set_option maxRecDepth 1000000
set_option maxHeartbeats 0

noncomputable def s296 : Setting := ⟨chars! "Pmmn:2", 3, t0, q! "24 0 0 0 0 24 0 0 0 0 24 0", trs! "0 10 32 30 25 98 85 83", gens! "10 434320308619640833 1;32 361421592464458498 2;25 216736831696667908 4", words! ";0;1;1 0;2;2 0;2 1;2 1 0", false⟩
noncomputable def s297 : Setting := ⟨chars! "Pmmn:1", 3, t167, q! "24 0 0 -6 0 24 0 -6 0 0 24 0", trs! "0 2 47 33 86 56 1 6", gens! "2 434320308619640833 1;47 361421592464458498 2;86 216736831696667908 4", words! ";0;1;1 0;2;2 0;2 1;2 1 0", false⟩
noncomputable def s298 : Setting := ⟨chars! "Pnmm:1", 3, t168, q! "0 0 24 0 24 0 0 -6 0 24 0 -6", trs! "0 40 29 36 87 50 59 6", gens! "40 434320308619640833 1;29 361421592464458498 2;87 216736831696667908 4", words! ";0;1;1 0;2;2 0;2 1;2 1 0", false⟩
noncomputable def s299 : Setting := ⟨chars! "Pnmm:2", 3, t27, q! "0 0 24 0 24 0 0 0 0 24 0 0", trs! "0 31 103 30 25 84 104 83", gens! "31 434320308619640833 1;103 361421592464458498 2;25 216736831696667908 4", words! ";0;1;1 0;2;2 0;2 1;2 1 0", false⟩
noncomputable def s300 : Setting := ⟨chars! "Pmnm:1", 3, t169, q! "0 24 0 -6 0 0 24 0 24 0 0 -6", trs! "0 43 46 26 89 50 1 53", gens! "43 434320308619640833 1;46 361421592464458498 2;89 216736831696667908 4", words! ";0;1;1 0;2;2 0;2 1;2 1 0", false⟩
noncomputable def s301 : Setting := ⟨chars! "Pmnm:2", 3, t28, q! "0 24 0 0 0 0 24 0 24 0 0 0", trs! "0 31 32 92 25 84 85 93", gens! "31 434320308619640833 1;32 361421592464458498 2;25 216736831696667908 4", words! ";0;1;1 0;2;2 0;2 1;2 1 0", false⟩
noncomputable def b77 : Block := ⟨s296, [⟨s297, nats! "1 2 4 0 0 0", nats! "1 2 4 0 0 0"⟩, ⟨s298, nats! "3 1 4 0 0 0", nats! "2 3 4 0 0 0"⟩, ⟨s299, nats! "3 1 4 0 0 0", nats! "2 3 4 0 0 0"⟩, ⟨s300, nats! "2 3 4 0 0 0", nats! "3 1 4 0 0 0"⟩, ⟨s301, nats! "2 3 4 0 0 0", nats! "3 1 4 0 0 0"⟩]⟩
noncomputable def s302 : Setting := ⟨chars! "Pbcn", 3, t0, q! "24 0 0 0 0 24 0 0 0 0 24 0", trs! "0 45 47 90 25 111 113 91", gens! "45 434320308619640833 1;47 361421592464458498 2;25 216736831696667908 4", words! ";0;1;1 0;2;2 0;2 1;2 1 0", false⟩
noncomputable def s303 : Setting := ⟨chars! "Pcan", 3, t11, q! "0 24 0 0 -24 0 0 0 0 0 24 0", trs! "0 45 105 33 25 111 106 109", gens! "45 434320308619640833 1;105 361421592464458498 2;25 216736831696667908 4", words! ";0;1;1 0;2;2 0;2 1;2 1 0", false⟩
noncomputable def s304 : Setting := ⟨chars! "Pnca", 3, t27, q! "0 0 24 0 24 0 0 0 0 24 0 0", trs! "0 96 49 36 25 97 114 107", gens! "96 434320308619640833 1;49 361421592464458498 2;25 216736831696667908 4", words! ";0;1;1 0;2;2 0;2 1;2 1 0", false⟩
noncomputable def s305 : Setting := ⟨chars! "Pnab", 3, t34, q! "0 0 24 0 0 24 0 0 -24 0 0 0", trs! "0 40 49 94 25 112 114 95", gens! "40 434320308619640833 1;49 361421592464458498 2;25 216736831696667908 4", words! ";0;1;1 0;2;2 0;2 1;2 1 0", false⟩
noncomputable def s306 : Setting := ⟨chars! "Pbna", 3, t28, q! "0 24 0 0 0 0 24 0 24 0 0 0", trs! "0 43 101 39 25 110 102 108", gens! "43 434320308619640833 1;101 361421592464458498 2;25 216736831696667908 4", words! ";0;1;1 0;2;2 0;2 1;2 1 0", false⟩
noncomputable def s307 : Setting := ⟨chars! "Pcnb", 3, t41, q! "-24 0 0 0 0 0 24 0 0 24 0 0", trs! "0 99 46 39 25 100 115 108", gens! "99 434320308619640833 1;46 361421592464458498 2;25 216736831696667908 4", words! ";0;1;1 0;2;2 0;2 1;2 1 0", false⟩
noncomputable def b78 : Block := ⟨s302, [⟨s303, nats! "1 3 4 0 0 0", nats! "1 3 4 0 0 0"⟩, ⟨s304, nats! "3 1 4 0 0 0", nats! "2 3 4 0 0 0"⟩, ⟨s305, nats! "2 1 4 0 0 0", nats! "2 1 4 0 0 0"⟩, ⟨s306, nats! "2 3 4 0 0 0", nats! "3 1 4 0 0 0"⟩, ⟨s307, nats! "3 2 4 0 0 0", nats! "3 2 4 0 0 0"⟩]⟩
noncomputable def s308 : Setting := ⟨chars! "Pbca", 3, t0, q! "24 0 0 0 0 24 0 0 0 0 24 0", trs! "0 43 47 36 25 110 113 107", gens! "43 434320308619640833 1;47 361421592464458498 2;25 216736831696667908 4", words! ";0;1;1 0;2;2 0;2 1;2 1 0", false⟩
noncomputable def s309 : Setting := ⟨chars! "Pcab", 3, t34, q! "0 0 24 0 0 24 0 0 -24 0 0 0", trs! "0 40 46 33 25 112 115 109", gens! "40 434320308619640833 1;46 361421592464458498 2;25 216736831696667908 4", words! ";0;1;1 0;2;2 0;2 1;2 1 0", false⟩
noncomputable def b79 : Block := ⟨s308, [⟨s309, nats! "2 1 4 0 0 0", nats! "2 1 4 0 0 0"⟩]⟩
noncomputable def s310 : Setting := ⟨chars! "Pnma", 3, t0, q! "24 0 0 0 0 24 0 0 0 0 24 0", trs! "0 43 49 30 25 110 114 83", gens! "43 434320308619640833 1;49 361421592464458498 2;25 216736831696667908 4", words! ";0;1;1 0;2;2 0;2 1;2 1 0", false⟩
noncomputable def s311 : Setting := ⟨chars! "Pmnb", 3, t11, q! "0 24 0 0 -24 0 0 0 0 0 24 0", trs! "0 40 32 39 25 112 85 108", gens! "40 434320308619640833 1;32 361421592464458498 2;25 216736831696667908 4", words! ";0;1;1 0;2;2 0;2 1;2 1 0", false⟩
noncomputable def s312 : Setting := ⟨chars! "Pbnm", 3, t27, q! "0 0 24 0 24 0 0 0 0 24 0 0", trs! "0 31 47 39 25 84 113 108", gens! "31 434320308619640833 1;47 361421592464458498 2;25 216736831696667908 4", words! ";0;1;1 0;2;2 0;2 1;2 1 0", false⟩
noncomputable def s313 : Setting := ⟨chars! "Pcmn", 3, t34, q! "0 0 24 0 0 24 0 0 -24 0 0 0", trs! "0 45 46 30 25 111 115 83", gens! "45 434320308619640833 1;46 361421592464458498 2;25 216736831696667908 4", words! ";0;1;1 0;2;2 0;2 1;2 1 0", false⟩
noncomputable def s314 : Setting := ⟨chars! "Pmcn", 3, t28, q! "0 24 0 0 0 0 24 0 24 0 0 0", trs! "0 45 32 36 25 111 85 107", gens! "45 434320308619640833 1;32 361421592464458498 2;25 216736831696667908 4", words! ";0;1;1 0;2;2 0;2 1;2 1 0", false⟩
noncomputable def s315 : Setting := ⟨chars! "Pnam", 3, t41, q! "-24 0 0 0 0 0 24 0 0 24 0 0", trs! "0 31 49 33 25 84 114 109", gens! "31 434320308619640833 1;49 361421592464458498 2;25 216736831696667908 4", words! ";0;1;1 0;2;2 0;2 1;2 1 0", false⟩
noncomputable def b80 : Block := ⟨s310, [⟨s311, nats! "1 3 4 0 0 0", nats! "1 3 4 0 0 0"⟩, ⟨s312, nats! "3 1 4 0 0 0", nats! "2 3 4 0 0 0"⟩, ⟨s313, nats! "2 1 4 0 0 0", nats! "2 1 4 0 0 0"⟩, ⟨s314, nats! "2 3 4 0 0 0", nats! "3 1 4 0 0 0"⟩, ⟨s315, nats! "3 2 4 0 0 0", nats! "3 2 4 0 0 0"⟩]⟩
noncomputable def s316 : Setting := ⟨chars! "Cmcm", 3, t0, q! "24 0 0 0 0 24 0 0 0 0 24 0", trs! "0 31 29 90 25 84 1 91 4 45 47 39 86 170 5 116", gens! "31 18687320815856387368178823909286805505 1;29 17342576855639742879858139805557719810 2;25 14673614102390417578512422760905835780 4;4 9335851481537165996061868750157777160 8", words! ";0;1;1 0;2;2 0;2 1;2 1 0;3;3 0;3 1;3 1 0;3 2;3 2 0;3 2 1;3 2 1 0", false⟩
noncomputable def s317 : Setting := ⟨chars! "Ccmm", 3, t11, q! "0 24 0 0 -24 0 0 0 0 0 24 0", trs! "0 31 105 26 25 84 106 6 4 45 49 33 86 170 134 9", gens! "31 18687320815856387368178823909286805505 1;105 17342576855639742879858139805557719810 2;25 14673614102390417578512422760905835780 4;4 9335851481537165996061868750157777160 8", words! ";0;1;1 0;2;2 0;2 1;2 1 0;3;3 0;3 1;3 1 0;3 2;3 2 0;3 2 1;3 2 1 0", false⟩
noncomputable def s318 : Setting := ⟨chars! "Amma", 3, t27, q! "0 0 24 0 24 0 0 0 0 24 0 0", trs! "0 96 32 26 25 97 85 6 35 45 49 36 87 124 171 61", gens! "96 18687320815856387368178823909286805505 1;32 17342576855639742879858139805557719810 2;25 14673614102390417578512422760905835780 4;35 9335851481537165996061868750157777160 8", words! ";0;1;1 0;2;2 0;2 1;2 1 0;3;3 0;3 1;3 1 0;3 2;3 2 0;3 2 1;3 2 1 0", false⟩
noncomputable def s319 : Setting := ⟨chars! "Amam", 3, t34, q! "0 0 24 0 0 24 0 0 -24 0 0 0", trs! "0 2 32 94 25 50 85 95 35 40 49 39 87 63 171 120", gens! "2 18687320815856387368178823909286805505 1;32 17342576855639742879858139805557719810 2;25 14673614102390417578512422760905835780 4;35 9335851481537165996061868750157777160 8", words! ";0;1;1 0;2;2 0;2 1;2 1 0;3;3 0;3 1;3 1 0;3 2;3 2 0;3 2 1;3 2 1 0", false⟩
noncomputable def s320 : Setting := ⟨chars! "Bbmm", 3, t28, q! "0 24 0 0 0 0 24 0 24 0 0 0", trs! "0 2 101 30 25 50 102 83 42 43 49 39 89 64 130 172", gens! "2 18687320815856387368178823909286805505 1;101 17342576855639742879858139805557719810 2;25 14673614102390417578512422760905835780 4;42 9335851481537165996061868750157777160 8", words! ";0;1;1 0;2;2 0;2 1;2 1 0;3;3 0;3 1;3 1 0;3 2;3 2 0;3 2 1;3 2 1 0", false⟩
noncomputable def s321 : Setting := ⟨chars! "Bmmb", 3, t41, q! "-24 0 0 0 0 0 24 0 0 24 0 0", trs! "0 99 29 30 25 100 1 83 42 45 46 39 89 128 66 172", gens! "99 18687320815856387368178823909286805505 1;29 17342576855639742879858139805557719810 2;25 14673614102390417578512422760905835780 4;42 9335851481537165996061868750157777160 8", words! ";0;1;1 0;2;2 0;2 1;2 1 0;3;3 0;3 1;3 1 0;3 2;3 2 0;3 2 1;3 2 1 0", false⟩
noncomputable def b81 : Block := ⟨s316, [⟨s317, nats! "1 3 4 8 0 0 0", nats! "1 3 4 8 0 0 0"⟩, ⟨s318, nats! "3 1 4 8 0 0 0", nats! "2 3 4 8 0 0 0"⟩, ⟨s319, nats! "2 1 4 8 0 0 0", nats! "2 1 4 8 0 0 0"⟩, ⟨s320, nats! "2 3 4 8 0 0 0", nats! "3 1 4 8 0 0 0"⟩, ⟨s321, nats! "3 2 4 8 0 0 0", nats! "3 2 4 8 0 0 0"⟩]⟩
noncomputable def s322 : Setting := ⟨chars! "Cmca", 3, t0, q! "24 0 0 0 0 24 0 0 0 0 24 0", trs! "0 43 29 92 25 110 1 93 4 125 47 119 86 173 5 122", gens! "43 18687320815856387368178823909286805505 1;29 17342576855639742879858139805557719810 2;25 14673614102390417578512422760905835780 4;4 9335851481537165996061868750157777160 8", words! ";0;1;1 0;2;2 0;2 1;2 1 0;3;3 0;3 1;3 1 0;3 2;3 2 0;3 2 1;3 2 1 0", false⟩
noncomputable def s323 : Setting := ⟨chars! "Ccmb", 3, t11, q! "0 24 0 0 -24 0 0 0 0 0 24 0", trs! "0 43 46 26 25 110 115 6 4 125 131 33 86 173 132 9", gens! "43 18687320815856387368178823909286805505 1;46 17342576855639742879858139805557719810 2;25 14673614102390417578512422760905835780 4;4 9335851481537165996061868750157777160 8", words! ";0;1;1 0;2;2 0;2 1;2 1 0;3;3 0;3 1;3 1 0;3 2;3 2 0;3 2 1;3 2 1 0", false⟩
noncomputable def s324 : Setting := ⟨chars! "Abma", 3, t27, q! "0 0 24 0 24 0 0 0 0 24 0 0", trs! "0 10 47 26 25 98 113 6 35 127 136 36 87 129 174 61", gens! "10 18687320815856387368178823909286805505 1;47 17342576855639742879858139805557719810 2;25 14673614102390417578512422760905835780 4;35 9335851481537165996061868750157777160 8", words! ";0;1;1 0;2;2 0;2 1;2 1 0;3;3 0;3 1;3 1 0;3 2;3 2 0;3 2 1;3 2 1 0", false⟩
noncomputable def s325 : Setting := ⟨chars! "Acam", 3, t34, q! "0 0 24 0 0 24 0 0 -24 0 0 0", trs! "0 2 47 33 25 50 113 109 35 40 136 117 87 63 174 118", gens! "2 18687320815856387368178823909286805505 1;47 17342576855639742879858139805557719810 2;25 14673614102390417578512422760905835780 4;35 9335851481537165996061868750157777160 8", words! ";0;1;1 0;2;2 0;2 1;2 1 0;3;3 0;3 1;3 1 0;3 2;3 2 0;3 2 1;3 2 1 0", false⟩
noncomputable def s326 : Setting := ⟨chars! "Bbcm", 3, t28, q! "0 24 0 0 0 0 24 0 24 0 0 0", trs! "0 2 47 33 25 50 113 109 42 43 131 119 89 64 135 175", gens! "2 18687320815856387368178823909286805505 1;47 17342576855639742879858139805557719810 2;25 14673614102390417578512422760905835780 4;42 9335851481537165996061868750157777160 8", words! ";0;1;1 0;2;2 0;2 1;2 1 0;3;3 0;3 1;3 1 0;3 2;3 2 0;3 2 1;3 2 1 0", false⟩
noncomputable def s327 : Setting := ⟨chars! "Bmab", 3, t41, q! "-24 0 0 0 0 0 24 0 0 24 0 0", trs! "0 10 29 33 25 98 1 109 42 125 46 119 89 126 66 175", gens! "10 18687320815856387368178823909286805505 1;29 17342576855639742879858139805557719810 2;25 14673614102390417578512422760905835780 4;42 9335851481537165996061868750157777160 8", words! ";0;1;1 0;2;2 0;2 1;2 1 0;3;3 0;3 1;3 1 0;3 2;3 2 0;3 2 1;3 2 1 0", false⟩
noncomputable def b82 : Block := ⟨s322, [⟨s323, nats! "9 11 4 8 0 0 0", nats! "9 3 4 8 0 0 0"⟩, ⟨s324, nats! "3 1 4 8 0 0 0", nats! "2 3 4 8 0 0 0"⟩, ⟨s325, nats! "2 9 4 8 0 0 0", nats! "10 1 4 8 0 0 0"⟩, ⟨s326, nats! "2 11 4 8 0 0 0", nats! "11 1 4 8 0 0 0"⟩, ⟨s327, nats! "3 2 4 8 0 0 0", nats! "3 2 4 8 0 0 0"⟩]⟩
noncomputable def s328 : Setting := ⟨chars! "Cmmm", 3, t0, q! "24 0 0 0 0 24 0 0 0 0 24 0", trs! "0 2 29 26 25 50 1 6 4 10 47 33 86 56 5 9", gens! "2 18687320815856387368178823909286805505 1;29 17342576855639742879858139805557719810 2;25 14673614102390417578512422760905835780 4;4 9335851481537165996061868750157777160 8", words! ";0;1;1 0;2;2 0;2 1;2 1 0;3;3 0;3 1;3 1 0;3 2;3 2 0;3 2 1;3 2 1 0", false⟩
noncomputable def s329 : Setting := ⟨chars! "Ammm", 3, t27, q! "0 0 24 0 24 0 0 0 0 24 0 0", trs! "0 2 29 26 25 50 1 6 35 40 103 36 87 63 59 61", gens! "2 18687320815856387368178823909286805505 1;29 17342576855639742879858139805557719810 2;25 14673614102390417578512422760905835780 4;35 9335851481537165996061868750157777160 8", words! ";0;1;1 0;2;2 0;2 1;2 1 0;3;3 0;3 1;3 1 0;3 2;3 2 0;3 2 1;3 2 1 0", false⟩
noncomputable def s330 : Setting := ⟨chars! "Bmmm", 3, t28, q! "0 24 0 0 0 0 24 0 24 0 0 0", trs! "0 2 29 26 25 50 1 6 42 43 46 92 89 64 66 53", gens! "2 18687320815856387368178823909286805505 1;29 17342576855639742879858139805557719810 2;25 14673614102390417578512422760905835780 4;42 9335851481537165996061868750157777160 8", words! ";0;1;1 0;2;2 0;2 1;2 1 0;3;3 0;3 1;3 1 0;3 2;3 2 0;3 2 1;3 2 1 0", false⟩
noncomputable def b83 : Block := ⟨s328, [⟨s329, nats! "3 1 4 8 0 0 0", nats! "2 3 4 8 0 0 0"⟩, ⟨s330, nats! "2 3 4 8 0 0 0", nats! "3 1 4 8 0 0 0"⟩]⟩

noncomputable def items6 : List Item := [
  .block b77,
  .block b78,
  .block b79,
  .block b80,
  .block b81,
  .block b82,
  .block b83]

theorem good6 : allB (Item.goodB lat) items6 = true := by decide +kernel

theorem text6 : Table.sgLines6 = (items6.flatMap Item.lines).map String.ofList := by krfl

end Systre.Sg.Data
