#!/usr/bin/env python3
"""Source of /verif/MANIFEST.json."""
import json, os
C = []
def c(pid, status, theorems, note=""):
    C.append(dict(property=pid, status=status, theorems=theorems, note=note))
L = "Auxi.Ledger.Props."
c("C03", "proved", [L+"C03_paths_spell_position", L+"C03_guard_needed"], "guard: no top level account is renamed to the empty string; necessity of the guard proved")
c("C04", "proved", [L+"C04_lookup_is_walk", L+"C04_lookup_own_path"])
c("C05", "partial", [L+"C05_missing_nested_raises", L+"C05_missing_partial"], "false of the code for nested paths (counterexample proved); exact outcome of every failed lookup proved")
c("C06", "proved", [L+"C06_validate"])
c("C07", "proved", [L+"C07_descendants"])
c("C08", "proved", [L+"C08_type_of_top", L+"C08_top_level_fixed", "C08_chart"])
c("C09", "proved", [L+"C09_create_remove", L+"C09_remove_missing", L+"C09_remove_last"])
exec(open(os.path.join(os.path.dirname(__file__), "manifest_more.py")).read()) if os.path.exists(os.path.join(os.path.dirname(__file__), "manifest_more.py")) else None
json.dump({"claims": C}, open(os.path.join(os.path.dirname(__file__), "..", "MANIFEST.json"), "w"), indent=1)
print(len(C))
