{
 "C03": "Hypothesis proofSize >= 1 is shown necessary by C03_proofSize_zero_panics.",
 "C47": "C47_sound and C47_agree assume that no two epochs of a chain share the first eight bytes of their seeds (NoClash); an example shows a hash function without clashes.",
 "C48": "C48_survive assumes NoClash as C47.",
 "C44": "Assumes NoClash as C47 and that running writers have drawn different numbers (C45 shows what happens otherwise). A crash is the death of a process; loss of the page cache in a power failure is not modelled.",
 "C45": "C45_distinct is the positive half, C45_clash the bad schedule for equal numbers.",
 "C64": "C64_shared assumes NoClash and different numbers of running writers."
}