import Verif.Model.Paths

/-! Cases of `filepath.Clean`, `Join` and `Dir` from the tests of the standard library -/

namespace Verif.Dag.Paths.Test

def cl (s : String) : String := String.ofList (clean s.toList)

#guard ["abc", "abc/def", "a/b/c", ".", "..", "../..", "../../abc", "/abc", "/", "", "abc/", "abc/def/", "a/b/c/", "./", "../", "../../",
    "/abc/", "abc//def//ghi", "abc//", "abc/./def", "/./abc/def", "abc/.", "abc/def/ghi/../jkl", "abc/def/../ghi/../jkl", "abc/def/..",
    "abc/def/../..", "/abc/def/../..", "abc/def/../../..", "/abc/def/../../..", "abc/def/../../../ghi/jkl/../../../mno", "/../abc",
    "a/../b:/../../c", "abc/./../def", "abc//./../def", "abc/../../././../def", "//abc", "///abc", "//abc//"].map cl =
  ["abc", "abc/def", "a/b/c", ".", "..", "../..", "../../abc", "/abc", "/", ".", "abc", "abc/def", "a/b/c", ".", "..", "../..",
    "/abc", "abc/def/ghi", "abc", "abc/def", "/abc/def", "abc", "abc/def/jkl", "abc/jkl", "abc",
    ".", "/", "..", "/", "../../mno", "/abc",
    "../c", "def", "def", "../../def", "/abc", "/abc", "/abc"]

def jn (l : List String) : String := String.ofList (join (l.map (·.toList)))

#guard [[], [""], ["/"], ["a"], ["a", "b"], ["a", ""], ["", "b"], ["/", "a"], ["/", "a/b"], ["/", ""], ["/a", "b"], ["a", "/b"], ["/a", "/b"],
    ["a/", "b"], ["a/", ""], ["", ""], ["/", "a", "b"], ["//", "a"]].map jn =
  ["", "", "/", "a", "a/b", "a", "b", "/a", "/a/b", "/", "/a/b", "a/b", "/a/b", "a/b", "a", "", "/a/b", "/a"]

def dr (s : String) : String := String.ofList (dirOf s.toList)

#guard ["", ".", "/.", "/", "/foo", "x/", "abc", "abc/def", "a/b/.x", "a/b/c.", "a/b/c.x"].map dr =
  [".", ".", "/", "/", "/", "x", ".", "abc", "a/b", "a/b", "a/b"]

end Verif.Dag.Paths.Test
