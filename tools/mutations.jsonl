{"id": "M001", "file": "Verif/Model/Output.lean", "definition": "OutMgr.row", "old": "p.momentum.x, p.momentum.y, p.momentum.z,\n    p.position.x", "new": "p.position.x, p.momentum.y, p.momentum.z,\n    p.momentum.x", "edit": "x components of momentum and position swapped in a stored row", "claim": "C51"}
{"id": "M002", "file": "Verif/Model/Output.lean", "definition": "OutMgr.storePrimary", "old": "let p \u2190 l.get 0", "new": "let p \u2190 l.get 1", "edit": "the second particle stored as the primary", "claim": "C51"}
{"id": "M003", "file": "Verif/Model/Output.lean", "definition": "OutMgr.fillOne", "old": "photons := u32 (s.photons + 1)", "new": "photons := u32 (s.photons + 0)", "edit": "photon counter not advanced", "claim": "C51"}
{"id": "M004", "file": "Verif/Model/Output.lean", "definition": "OutMgr.fillOne", "old": "if p.name = \"Positron\" then do", "new": "if p.name = \"positron\" then do", "edit": "positrons compared with a lower case name", "claim": "C51"}
{"id": "M005", "file": "Verif/Model/Output.lean", "definition": "OutMgr.storeFinal", "old": "let positron \u2190 vset m.positron eventID (some s.positronData)", "new": "let positron \u2190 vset m.positron eventID (some s.electronData)", "edit": "electron array stored for the positrons", "claim": "C51"}
{"id": "M006", "file": "Verif/Model/Output.lean", "definition": "OutMgr.copyEvents", "old": "copyEvents srcs (counts.drop 1) dst idx", "new": "copyEvents srcs counts dst idx", "edit": "row count of event 0 used for all events", "claim": "C51"}
{"id": "M007", "file": "Verif/Model/Output.lean", "definition": "OutMgr.copyRows", "old": "let vs \u2190 b.readRow (u32 (j * 8)) 8", "new": "let vs \u2190 b.readRow (u32 (j * 7)) 8", "edit": "wrong stride when rows are copied", "claim": "C51"}
{"id": "M008", "file": "Verif/Model/Output.lean", "definition": "OutMgr.speciesTable", "old": "Buf.new (u32 (total * 8))", "new": "Buf.new (u32 (total * 7))", "edit": "table allocated too small", "claim": "C51"}
{"id": "M009", "file": "Verif/Model/Output.lean", "definition": "H5.addGroup", "old": "if status = false then f.createGroup p else .ok f", "new": "if status = true then f.createGroup p else .ok f", "edit": "AddGroup corrected: the group is created when it is missing", "claim": "C54"}
{"id": "M010", "file": "Verif/Model/Output.lean", "definition": "OutMgr.gridIndex", "old": "(i * ny * nz + j * nz + k)", "new": "(i * ny * nz + j * ny + k)", "edit": "wrong stride in the grid index", "claim": "C58"}
{"id": "M011", "file": "Verif/Model/Output.lean", "definition": "OutMgr.fieldSets", "old": "let f \u2190 outComponent f field t xs ys zs (\u00b7.1.y) (group ++ [\"E1\"])", "new": "let f \u2190 outComponent f field t xs ys zs (\u00b7.1.z) (group ++ [\"E1\"])", "edit": "z component written as E1", "claim": "C92", "tightened": ["C92_field_partial", "C92_track_partial", "C92_tracks_kept"]}
{"id": "M012", "file": "Verif/Model/Output.lean", "definition": "OutMgr.fieldAt", "old": "xs.getD i (lit 0), ys.getD j (lit 0)", "new": "xs.getD j (lit 0), ys.getD i (lit 0)", "edit": "x and y index swapped when the field is evaluated", "claim": "C92", "tightened": ["C92_field_partial", "C92_track_partial", "C92_tracks_kept"]}
{"id": "M013", "file": "Verif/Model/Output.lean", "definition": "OutMgr.storeTrack", "old": "m.tracks ++ l.items.map", "new": "l.items.map", "edit": "StoreTrack overwrites the tracks of earlier events", "claim": "C92", "tightened": ["C92_field_partial", "C92_track_partial", "C92_tracks_kept"]}
{"id": "M014", "file": "Verif/Model/Output.lean", "definition": "OutMgr.trackSets", "old": "(t.time.map fun x => some (x *. u.time)) t.time.length", "new": "(t.time.map fun x => some (x *. u.length)) t.time.length", "edit": "times scaled by the length unit", "claim": "C92", "tightened": ["C92_field_partial", "C92_track_partial", "C92_tracks_kept"]}
{"id": "M015", "file": "Verif/Model/OutputMpi.lean", "definition": "masterEvents", "old": "recvPrimaries sizes 1 prime (m.primary.length * 8)", "new": "recvPrimaries sizes 1 prime 0", "edit": "received primaries overwrite those of the master", "claim": "C55"}
{"id": "M016", "file": "Verif/Model/OutputMpi.lean", "definition": "slaveEvents", "old": "sendSize 0 3 np", "new": "sendSize 0 3 ng", "edit": "number of photons sent as the number of positrons", "claim": "C55"}
{"id": "M017", "file": "Verif/Model/OutputMpi.lean", "definition": "recvArrays", "old": "let p \u2190 recvPart i 3 s.p p\n    let g \u2190 recvPart i 4 s.g g", "new": "let g \u2190 recvPart i 4 s.g g\n    let p \u2190 recvPart i 3 s.p p", "edit": "photons received before positrons", "claim": "C55"}
{"id": "M018", "file": "Verif/Model/OutputMpi.lean", "definition": "recvPrimaries", "old": "recvPrimaries sizes (i + 1) dst idx", "new": "recvPrimaries sizes i dst idx", "edit": "all primaries received from rank 1", "claim": "C55"}
{"id": "M019", "file": "Verif/Model/OutputMpi.lean", "definition": "outputHistMPI", "old": "sendDoubles 0 0 (h.values.map some) (i32 h.nBins)\n    .barrier (.ret (.ok l))", "new": "sendDoubles 0 0 (h.values.map some) (i32 h.nBins)\n    (.ret (.ok l))", "edit": "no barrier after the histogram was sent (slaves)", "claim": "C56"}
{"id": "M020", "file": "Verif/Model/OutputMpi.lean", "definition": "outputHistMPI", "old": "let l \u2190 masterHist S nProc h l\n    .barrier (.ret (.ok l))\n  else do\n    sendDoubles 0 0 (h.values.map some) (i32 h.nBins)\n    .barrier (.ret (.ok l))", "new": "let l \u2190 masterHist S nProc h l\n    (.ret (.ok l))\n  else do\n    sendDoubles 0 0 (h.values.map some) (i32 h.nBins)\n    (.ret (.ok l))", "edit": "no barrier between histograms", "claim": "C56"}
{"id": "M021", "file": "Verif/Model/OutputMpi.lean", "definition": "masterHist", "old": "recvHists h.nBins (nProc - 1) values", "new": "recvHists h.nBins (nProc - 2) values", "edit": "one rank not waited for", "claim": "C56"}
{"id": "M022", "file": "Verif/Model/OutputMpi.lean", "definition": "addBins", "old": ".ok ((v +. x) :: rest)", "new": ".ok (x :: rest)", "edit": "received bins replace instead of add", "claim": "C56"}
{"id": "M023", "file": "Verif/Model/OutputMpi.lean", "definition": "probeSizes", "old": "let total \u2190 lift (addInt total size)", "new": "let total \u2190 lift (addInt size size)", "edit": "total is not accumulated", "claim": "C55"}
{"id": "M024", "file": "Verif/Model/OutputMpi.lean", "definition": "sinkTable", "old": "if 0 < size then", "new": "if 8 < size then", "edit": "table with a single row left out", "claim": "C55"}
{"id": "M025", "file": "Verif/Model/Main.lean", "definition": "Main.commandLine", "old": "if a.length < 4 then .throw \"std::out_of_range\"", "new": "if a.length < 4 then .exit 1", "edit": "short file names rejected instead of throwing", "claim": "C69"}
{"id": "M026", "file": "Verif/Model/Main.lean", "definition": "Main.commandLine", "old": "a.drop (a.length - 4) = \".ini\".toList", "new": "a.drop (a.length - 3) = \"ini\".toList", "edit": "suffix ini accepted without a dot", "claim": "C69"}
{"id": "M027", "file": "Verif/Model/Main.lean", "definition": "Main.makeEmission", "old": ".ok (landauForce, .continuous cfg true)", "new": ".ok (modLandauForce, .continuous cfg true)", "edit": "classical physics with the modified pusher", "claim": "C68"}
{"id": "M028", "file": "Verif/Model/Main.lean", "definition": "Main.makeEmission", "old": "physics = \"Semiclassical\" \u2228 physics = \"semiclassical\"", "new": "physics = \"Semiclassical\"", "edit": "lower case semiclassical rejected", "claim": "C68"}
{"id": "M029", "file": "Verif/Model/Main.lean", "definition": "Main.makePhysics", "old": ".ok (push, [emission, .breitWheeler (bwCfg t field g.timeStep)])", "new": ".ok (push, [emission])", "edit": "pair production ignored", "claim": "C68"}
{"id": "M030", "file": "Verif/Model/Main.lean", "definition": "Main.makeSource", "old": "p.radius p.duration p.divergence", "new": "p.radius p.divergence p.duration", "edit": "duration and divergence swapped", "claim": "C91", "tightened": ["C91_loop", "C91_source", "C91_histogram"]}
{"id": "M031", "file": "Verif/Model/Main.lean", "definition": "Main.makeHist", "old": "h.minBin h.maxBin", "new": "h.maxBin h.minBin", "edit": "bin limits swapped", "claim": "C91", "tightened": ["C91_loop", "C91_source", "C91_histogram"]}
{"id": "M032", "file": "Verif/Model/Main.lean", "definition": "Main.setup", "old": "timeEnd := i.general.timeEnd", "new": "timeEnd := i.general.timeStep", "edit": "time step used as end time", "claim": "C91", "tightened": ["C91_loop", "C91_source", "C91_histogram"]}
{"id": "M033", "file": "Verif/Model/Main.lean", "definition": "Main.makeField", "old": ".static e b => .ok (staticField e b)", "new": ".static e b => .ok (staticField b e)", "edit": "static E and B swapped", "claim": "C91", "tightened": ["C91_loop", "C91_source", "C91_histogram"]}
{"id": "M034", "file": "Verif/Model/Main.lean", "definition": "Main.emissionCfg", "old": "{ field, dt, track, sampleFrac, eMin\n", "new": "{ field, dt, track, sampleFrac := eMin, eMin := sampleFrac\n", "edit": "sample fraction and minimum energy swapped", "claim": "C68"}
{"id": "M035", "file": "Verif/Model/FileParser.lean", "definition": "FileParser.checkVitals", "old": "else if r.hasValue \"General\".toList \"time_end\".toList = false then .exit 1\n", "new": "", "edit": "missing time_end not detected", "claim": "C66"}
{"id": "M036", "file": "Verif/Model/FileParser.lean", "definition": "FileParser.readGeneral", "old": "timeEnd := real r sect \"time_end\" (lit 0) /. u.refTime", "new": "timeEnd := real r sect \"time_end\" (lit 0)", "edit": "end time not converted", "claim": "C79"}
{"id": "M037", "file": "Verif/Model/FileParser.lean", "definition": "FileParser.readField", "old": "\u2227 type \u2260 \"focusing\" then .exit 1", "new": "then .exit 1", "edit": "focusing field rejected", "claim": "C79"}
{"id": "M038", "file": "Verif/Model/FileParser.lean", "definition": "FileParser.readField", "old": ".ok (.static (e.divs u.refEField) (b.divs u.refBField))", "new": ".ok (.static (e.divs u.refEField) (b.divs u.refEField))", "edit": "B field in units of E", "claim": "C79"}
{"id": "M039", "file": "Verif/Model/FileParser.lean", "definition": "FileParser.readField", "old": "if type \u2260 \"gaussian\" \u2227 type \u2260 \"plane\" \u2227 type \u2260 \"static\" \u2227 type \u2260 \"focusing\" then .exit 1\n    else ", "new": "", "edit": "unknown field type not rejected", "claim": "C66"}
{"id": "M040", "file": "Verif/Model/FileParser.lean", "definition": "FileParser.readParticle", "old": "energy2 := real r sect \"energy_sig\" (lit 0) /. u.refEnergy", "new": "energy2 := real r sect \"energy_mean\" (lit 0) /. u.refEnergy", "edit": "mean used as energy spread", "claim": "C67"}
{"id": "M041", "file": "Verif/Model/FileParser.lean", "definition": "FileParser.readHistogram", "old": "time := real r sect \"time\" (lit 0) /. u.refTime", "new": "time := real r sect \"time\" (lit 0)", "edit": "histogram time not converted", "claim": "C67"}
{"id": "M042", "file": "Verif/Model/FileParser.lean", "definition": "FileParser.readNumbered", "old": "let rest \u2190 readNumbered sections pre read fuel (i + 1)", "new": "let rest \u2190 readNumbered sections pre read fuel (i + 2)", "edit": "every second section skipped", "claim": "C67"}
{"id": "M043", "file": "Verif/Model/FileParser.lean", "definition": "FileParser.parse", "old": "(readParticle r u) (r.sections.length + 1) 1", "new": "(readParticle r u) (r.sections.length + 1) 0", "edit": "sources numbered from 0", "claim": "C67"}
{"id": "M044", "file": "Verif/Model/FileParser.lean", "definition": "FileParser.toU32", "old": "(n % 2 ^ 32).toNat", "new": "n.toNat", "edit": "negative numbers clipped to 0", "claim": "C90", "tightened": ["C90_negative_refuted", "C90_leading_zero_refuted"]}
{"id": "M045", "file": "Verif/Model/Ini.lean", "definition": "Ini.findFrom", "old": "if stop c || (wasSpace && c = ';')", "new": "if stop c || (c = ';')", "edit": "semicolon starts a comment without a space before it", "claim": "C59"}
{"id": "M046", "file": "Verif/Model/Ini.lean", "definition": "Ini.lineStep", "old": "if c = ';' \u2228 c = '#' then st", "new": "if c = ';' then st", "edit": "# lines are not comments", "claim": "C60"}
{"id": "M047", "file": "Verif/Model/Ini.lean", "definition": "Ini.lineStep", "old": "{ st with sect := strncpy50 name, prevName := [] }", "new": "{ st with sect := strncpy50 name }", "edit": "previous name kept across sections", "claim": "C59"}
{"id": "M048", "file": "Verif/Model/Ini.lean", "definition": "Ini.PState.fail", "old": "if st.error = 0 then { st with error := st.lineno } else st", "new": "{ st with error := st.lineno }", "edit": "last instead of first bad line reported", "claim": "C62"}
{"id": "M049", "file": "Verif/Model/Ini.lean", "definition": "Ini.fgetsAll", "old": "if c = '\\n' \u2228 room \u2264 1", "new": "if c = '\\n' \u2228 room \u2264 2", "edit": "buffer one shorter", "claim": "C63"}
{"id": "M050", "file": "Verif/Model/Ini.lean", "definition": "Ini.makeKey", "old": "lower (sect ++ '=' :: name)", "new": "sect ++ '=' :: lower name", "edit": "keys are case sensitive in the section", "claim": "C61"}
{"id": "M051", "file": "Verif/Model/Ini.lean", "definition": "Reader.handle", "old": "(if old \u2260 [] then old ++ ['\\n'] else old) ++ c.value", "new": "c.value", "edit": "a second value replaces the first", "claim": "C59"}
{"id": "M052", "file": "Verif/Model/Ini.lean", "definition": "Reader.getBoolean", "old": "\"on\".toList, \"1\".toList] then true", "new": "\"1\".toList] then true", "edit": "\"on\" is not a true value", "claim": "C79"}
{"id": "M053", "file": "Verif/Model/Ini.lean", "definition": "Reader.threeVectorOf", "old": "| [a, b] => .ok \u27e8Dbl.lit a, Dbl.lit b, Dbl.lit 0\u27e9", "new": "| [a, b] => .ok \u27e8Dbl.lit a, Dbl.lit 0, Dbl.lit b\u27e9", "edit": "two numbers give x and z", "claim": "C64"}
{"id": "M054", "file": "Verif/Model/Ini.lean", "definition": "Reader.threeVectorOf", "old": "| [a, b, c] => .ok \u27e8Dbl.lit a, Dbl.lit b, Dbl.lit c\u27e9", "new": "| [a, b, c] => .ok \u27e8Dbl.lit a, Dbl.lit c, Dbl.lit b\u27e9", "edit": "y and z swapped", "claim": "C64"}
{"id": "M055", "file": "Verif/Model/Ini.lean", "definition": "Num.vecChar", "old": "c = '-' || c = ' '", "new": "c = ' '", "edit": "minus signs dropped", "claim": "C64"}
{"id": "M056", "file": "Verif/Model/Ini.lean", "definition": "Num.extract", "old": "if eneg then -(ofDigits 10 ds : Int) else ofDigits 10 ds\n        some (if neg", "new": "if eneg then (ofDigits 10 ds : Int) else ofDigits 10 ds\n        some (if neg", "edit": "negative exponents read as positive", "claim": "C64"}
{"id": "M057", "file": "Verif/Model/Ini.lean", "definition": "Num.decimal", "old": "(10 : \u211a) ^ (ex - fp.length)", "new": "(10 : \u211a) ^ (ex + fp.length)", "edit": "fraction digits scale up", "claim": "C79"}
{"id": "M058", "file": "Verif/Model/Ini.lean", "definition": "Num.strtol", "old": "(8, t.takeWhile (isDigit 8))\n    | _", "new": "(10, t.takeWhile (isDigit 10))\n    | _", "edit": "leading zero is not octal", "claim": "C90", "tightened": ["C90_negative_refuted", "C90_leading_zero_refuted"]}
{"id": "M059", "file": "Verif/Model/Sim.lean", "definition": "particleLoop", "old": "particleLoop cfg fuel (k + 1) l' r'", "new": "particleLoop cfg fuel (k + 2) l' r'", "edit": "every second particle skipped", "claim": "C42"}
{"id": "M060", "file": "Verif/Model/Sim.lean", "definition": "visit", "old": "interactAll cfg.procs k (l.set k (pushParticle cfg.push cfg.field cfg.dt p)) r", "new": "interactAll cfg.procs k l r", "edit": "particles not pushed", "claim": "C42"}
{"id": "M061", "file": "Verif/Model/Sim.lean", "definition": "interactAt", "old": ".ok (l'.set k p', r')", "new": ".ok (l', r')", "edit": "the particle's own change is lost", "claim": "C43"}
{"id": "M062", "file": "Verif/Model/Sim.lean", "definition": "interactAll", "old": "interactAll rest k l' r'", "new": ".ok (l', r')", "edit": "only the first process is run", "claim": "C43"}
{"id": "M063", "file": "Verif/Model/Sim.lean", "definition": "histStep", "old": "histCount := s.histCount + 1", "new": "histCount := s.histCount", "edit": "histogram counter not advanced", "claim": "C41"}
{"id": "M064", "file": "Verif/Model/Sim.lean", "definition": "histStep", "old": "if h.time <=. s.time then", "new": "if s.time <=. h.time then", "edit": "histogram filled before its time", "claim": "C41"}
{"id": "M065", "file": "Verif/Model/Sim.lean", "definition": "timeStep", "old": "time := s.time +. cfg.dt", "new": "time := s.time", "edit": "time not advanced", "claim": "C40"}
{"id": "M066", "file": "Verif/Model/Sim.lean", "definition": "fillHist", "old": "if h.particle = p.name then h.appParticle p else .ok h", "new": "h.appParticle p", "edit": "species filter dropped", "claim": "C41 C45"}
{"id": "M067", "file": "Verif/Model/Sim.lean", "definition": "fillRest", "old": "| h :: hs, c + 1 => do let hs' \u2190 fillRest l c hs; .ok (h :: hs')", "new": "| h :: hs, c + 1 => do let h \u2190 fillHist h l.items; let hs' \u2190 fillRest l c hs; .ok (h :: hs')", "edit": "filled histograms filled again at the end", "claim": "C41"}
{"id": "M068", "file": "Verif/Model/Histogram.lean", "definition": "Hist.count", "old": "(first <. x) && (x <. last)", "new": "(first <=. x) && (x <. last)", "edit": "lower edge included", "claim": "C45 C50"}
{"id": "M069", "file": "Verif/Model/Histogram.lean", "definition": "Hist.count", "old": "(v +. lit 1)", "new": "(v +. lit 2)", "edit": "two counts per particle", "claim": "C45"}
{"id": "M070", "file": "Verif/Model/Histogram.lean", "definition": "Hist.binCentres", "old": "(lit nBins -. lit 1)", "new": "lit nBins", "edit": "bin width from the number of bins", "claim": "C45 C50"}
{"id": "M071", "file": "Verif/Model/Histogram.lean", "definition": "Hist.normalise", "old": "h.values.map (\u00b7 /. h.total)", "new": "h.values.map (\u00b7 /. lit h.entries)", "edit": "normalised by the number of entries", "claim": "C48"}
{"id": "M072", "file": "Verif/Model/Histogram.lean", "definition": "Hist.merge", "old": "entries := (h.entries + g.entries) % 2 ^ 32", "new": "entries := h.entries", "edit": "entries not added", "claim": "C49"}
{"id": "M073", "file": "Verif/Model/Histogram.lean", "definition": "Hist.merge", "old": "values := addBins h.values g.values", "new": "values := addBins h.values h.values", "edit": "own values added twice", "claim": "C49"}
{"id": "M074", "file": "Verif/Model/Histogram.lean", "definition": "Hist.appParticle", "old": ".exit 1 else h.count p.energy", "new": ".exit 1 else h.count p.weight", "edit": "weight binned instead of energy", "claim": "C46 C45"}
{"id": "M075", "file": "Verif/Model/Processes.lean", "definition": "stochasticInteract", "old": "(part.momentum.sub gammaP)", "new": "(part.momentum.add gammaP)", "edit": "recoil with the wrong sign", "claim": "C32"}
{"id": "M076", "file": "Verif/Model/Processes.lean", "definition": "stochasticInteract", "old": "let gammaE := lit 2 *. chi *. part.gamma /. eta\n      let gammaP", "new": "let gammaE := chi *. part.gamma /. eta\n      let gammaP", "edit": "factor two missing in the photon energy", "claim": "C38"}
{"id": "M077", "file": "Verif/Model/Processes.lean", "definition": "storePhoton", "old": "if cfg.sampleFrac <. r.next.1 then", "new": "if r.next.1 <. cfg.sampleFrac then", "edit": "sampling test the right way round", "claim": "C33 C34"}
{"id": "M078", "file": "Verif/Model/Processes.lean", "definition": "storePhoton", "old": "(part.weight /. cfg.sampleFrac) part.time", "new": "part.weight part.time", "edit": "weight not corrected for sampling", "claim": "C34"}
{"id": "M079", "file": "Verif/Model/Processes.lean", "definition": "stochasticInteract", "old": ".ok (part.initOpticalDepth stored.2.next.1, stored.1, stored.2.next.2)", "new": ".ok (part, stored.1, stored.2)", "edit": "optical depth not reset after emission", "claim": "C16"}
{"id": "M080", "file": "Verif/Model/Processes.lean", "definition": "stochasticInteract", "old": "if (part.mass ==. lit 0) || !part.isAlive then .ok (part, list, r)\n  else\n    let eta := calculateEta cfg.field part\n    let logh", "new": "if (part.mass ==. lit 0) then .ok (part, list, r)\n  else\n    let eta := calculateEta cfg.field part\n    let logh", "edit": "dead particles emit", "claim": "C30"}
{"id": "M081", "file": "Verif/Model/Processes.lean", "definition": "continuousInteract", "old": ".ok (part, list.add photon, r3.2)", "new": ".ok (part.updateTrack part.position (part.momentum.sub photon.momentum), list.add photon, r3.2)", "edit": "recoil added to continuous emission", "claim": "C35"}
{"id": "M082", "file": "Verif/Model/Processes.lean", "definition": "continuousInteract", "old": "let weight := part.weight *. deltaOD /. cfg.sampleFrac", "new": "let weight := part.weight *. deltaOD", "edit": "weight not corrected for sampling", "claim": "C34"}
{"id": "M083", "file": "Verif/Model/Processes.lean", "definition": "continuousInteract", "old": "if cfg.sampleFrac <. r1.1 then .ok", "new": "if r1.1 <. cfg.sampleFrac then .ok", "edit": "sampling test reversed", "claim": "C34"}
{"id": "M084", "file": "Verif/Model/Processes.lean", "definition": "bwInteract", "old": "let eEnergy := (lit 1 -. split) *. part.energy", "new": "let eEnergy := split *. part.energy", "edit": "both leptons get the same share", "claim": "C36"}
{"id": "M085", "file": "Verif/Model/Processes.lean", "definition": "bwInteract", "old": ".ok (part.kill, (list.add positron).add electron, r3.2)", "new": ".ok (part, (list.add positron).add electron, r3.2)", "edit": "converted photon not killed", "claim": "C36 C52"}
{"id": "M086", "file": "Verif/Model/Processes.lean", "definition": "bwInteract", "old": "pairLepton (lit (-1)) eEnergy", "new": "pairLepton (lit 1) eEnergy", "edit": "two positrons created", "claim": "C36 C43"}
{"id": "M087", "file": "Verif/Model/Processes.lean", "definition": "pairLepton", "old": "sqrt (energy *. energy -. lit 1)", "new": "sqrt (energy *. energy)", "edit": "rest mass ignored", "claim": "C36"}
{"id": "M088", "file": "Verif/Model/Processes.lean", "definition": "pairLepton", "old": "part.weight part.time track u", "new": "(lit 1) part.time track u", "edit": "weight of the parent not inherited", "claim": "C36"}
{"id": "M089", "file": "Verif/Model/Processes.lean", "definition": "pairLepton", "old": "part.position\n    (part.direction", "new": "V3.zero\n    (part.direction", "edit": "pair created at the origin", "claim": "C36"}
{"id": "M090", "file": "Verif/Model/Processes.lean", "definition": "bwSplit", "old": ".ok ((lit 1 -. frac) *. lowValue +. frac *. highValue)", "new": ".ok (frac *. lowValue +. (lit 1 -. frac) *. highValue)", "edit": "interpolation weights swapped", "claim": "C36 C39 C101", "tightened": ["C101_pairs_partial", "C101_pairs_between"]}
{"id": "M091", "file": "Verif/Model/Processes.lean", "definition": "calculateChi", "old": "let th \u2190 rd cfg.phEnTable (low + 1)", "new": "let th \u2190 rd cfg.phEnTable (low + 2)", "edit": "row index off by one", "claim": "C39"}
{"id": "M092", "file": "Verif/Model/Processes.lean", "definition": "bwInteract", "old": "if part.typeName \u2260 \"Photon\" \u2228 part.isAlive = false then", "new": "if part.typeName \u2260 \"Photon\" then", "edit": "dead photons convert again", "claim": "C30"}
{"id": "M093", "file": "Verif/Model/Processes.lean", "definition": "bwChi", "old": "(ePerp.add (dir.cross f.2)).mag", "new": "(ePerp.sub (dir.cross f.2)).mag", "edit": "sign of the magnetic term", "claim": "C37 C102", "tightened": ["C102_chi_partial", "C102_frames_chi_partial"]}
{"id": "M094", "file": "Verif/Model/Processes.lean", "definition": "emissionLogh", "old": "if eta <. lit 1e-12 then .ok (lit 0.7193)\n  else", "new": "", "edit": "low-eta limit dropped", "claim": "C39"}
{"id": "M095", "file": "Verif/Model/Pushers.lean", "definition": "lorentzForce", "old": ".smul charge", "new": ".smul (charge *. charge)", "edit": "force does not depend on the sign of the charge", "claim": "C31"}
{"id": "M096", "file": "Verif/Model/Pushers.lean", "definition": "pushPosition", "old": "p.divs (mass *. pushGamma mass p)", "new": "p.divs mass", "edit": "velocity without gamma", "claim": "C27"}
{"id": "M097", "file": "Verif/Model/Pushers.lean", "definition": "pushGamma", "old": "p.mag2 /. (mass *. mass)", "new": "p.mag2 /. mass", "edit": "gamma with one power of the mass", "claim": "C27"}
{"id": "M098", "file": "Verif/Model/Pushers.lean", "definition": "modLandauForce", "old": "(lorentzForce mass charge p e b).add (modLandauReaction mass p e b)", "new": "(modLandauReaction mass p e b)", "edit": "Lorentz force dropped", "claim": "C28 C31"}
{"id": "M099", "file": "Verif/Model/Pushers.lean", "definition": "rk4", "old": "(dt /. lit 6)),\n   mom", "new": "(dt /. lit 3)),\n   mom", "edit": "weight of the position average", "claim": "C27 C28"}
{"id": "M100", "file": "Verif/Model/Pushers.lean", "definition": "rk4", "old": "((momK1.add (momK2.smul (lit 2))).add (momK3.smul (lit 2))).add momK4", "new": "((momK1.add (momK2.smul (lit 2))).add momK3).add momK4", "edit": "weight of the third momentum slope", "claim": "C28"}
{"id": "M101", "file": "Verif/Model/Pushers.lean", "definition": "rk4", "old": "let f4 := field (time +. dt) (pos.add (posK3.muls dt))", "new": "let f4 := field (time +. dt /. lit 2) (pos.add (posK3.muls dt))", "edit": "field of the fourth slope at half time", "claim": "C28 C103", "tightened": ["C103_step", "C103_cubic"]}
{"id": "M102", "file": "Verif/Model/Pushers.lean", "definition": "pushParticle", "old": "part.momentum.smul (dt /. part.momentum.mag)", "new": "part.momentum.smul dt", "edit": "photon speed depends on its energy", "claim": "C26"}
{"id": "M103", "file": "Verif/Model/Pushers.lean", "definition": "pushParticle", "old": "if part.isAlive = false then part\n  else ", "new": "", "edit": "dead particles pushed", "claim": "C30"}
{"id": "M104", "file": "Verif/Model/Pushers.lean", "definition": "pushParticle", "old": "(part.updateTrack r.1 r.2).updateTime dt", "new": "(part.updateTime dt).updateTrack r.1 r.2", "edit": "time advanced before the track is recorded", "claim": "C15"}
{"id": "M105", "file": "Verif/Model/Pushers.lean", "definition": "pushParticle", "old": "(part.updateTrack positionNew part.momentum).updateTime dt", "new": "part.updateTrack positionNew part.momentum", "edit": "photon time not advanced", "claim": "C42"}
{"id": "M106", "file": "Verif/Model/Fields.lean", "definition": "PlaneField.getField", "old": "\u27e8e0 *. sin f.polAngle, e0 *. cos f.polAngle, lit 0\u27e9)\n\nend PlaneField", "new": "\u27e8-. (e0 *. sin f.polAngle), e0 *. cos f.polAngle, lit 0\u27e9)\n\nend PlaneField", "edit": "B perpendicular to E for all polarisations", "claim": "C21"}
{"id": "M107", "file": "Verif/Model/Fields.lean", "definition": "PlaneField.amplitude", "old": "cos ((p.z -. time) *. f.waveNum)", "new": "cos ((p.z +. time) *. f.waveNum)", "edit": "wave travels backwards", "claim": "C25"}
{"id": "M108", "file": "Verif/Model/Fields.lean", "definition": "GaussField.amplitude", "old": "(f.waist /. beamWaist)", "new": "(beamWaist /. f.waist)", "edit": "amplitude grows away from the focus", "claim": "C22"}
{"id": "M109", "file": "Verif/Model/Fields.lean", "definition": "GaussField.amplitude", "old": "exp (lit (-1) *. r2", "new": "exp (lit 1 *. r2", "edit": "field grows away from the axis", "claim": "C22"}
{"id": "M110", "file": "Verif/Model/Fields.lean", "definition": "GaussField.amplitude", "old": "cos (p.z *. f.waveNum +.", "new": "cos ((p.z -. time) *. f.waveNum +.", "edit": "oscillation in time added", "claim": "C78"}
{"id": "M111", "file": "Verif/Model/Fields.lean", "definition": "GaussField.new", "old": "startPos.direction focusPos\n  let rotation := waveVec.rotateToAxis V3.ez\n  { maxE", "new": "focusPos.direction startPos\n  let rotation := waveVec.rotateToAxis V3.ez\n  { maxE", "edit": "beam propagates backwards", "claim": "C21 C23"}
{"id": "M112", "file": "Verif/Model/Fields.lean", "definition": "FocusField.getField", "old": "if f.envelope time p <. lit 1e-15 then\n    (\u27e8lit 0, lit 0, lit 0\u27e9, \u27e8lit 0, lit 0, lit 0\u27e9)\n  else\n", "new": "", "edit": "no cut-off", "claim": "C24"}
{"id": "M113", "file": "Verif/Model/Fields.lean", "definition": "FocusField.polarise", "old": "let y' := x' *. sin polAngle", "new": "let y' := v.x *. sin polAngle", "edit": "polarisation step corrected", "claim": "C24"}
{"id": "M114", "file": "Verif/Model/Fields.lean", "definition": "FocusField.envelope", "old": "(time -. f.t0 -. p.z) *. (time -. f.t0 -. p.z)", "new": "(time -. p.z) *. (time -. p.z)", "edit": "pulse delay missing", "claim": "C24 C22"}
{"id": "M115", "file": "Verif/Model/Source.lean", "definition": "Source.generateList", "old": "partCount := s.partCount + 1", "new": "partCount := s.partCount", "edit": "event counter not advanced", "claim": "C17"}
{"id": "M116", "file": "Verif/Model/Source.lean", "definition": "Source.generateList", "old": "if s.partCount = s.nPart then .exit 1", "new": "if s.partCount = s.nPart + 1 then .exit 1", "edit": "one event too many", "claim": "C17"}
{"id": "M117", "file": "Verif/Model/Source.lean", "definition": "Source.generateList", "old": "let energy \u2190 rd s.energy s.partCount", "new": "let energy \u2190 rd s.energy 0", "edit": "all particles get the first energy", "claim": "C19"}
{"id": "M118", "file": "Verif/Model/Source.lean", "definition": "Source.sphere", "old": "\u27e8sin theta *. cos phi, sin theta *. sin phi, cos theta\u27e9", "new": "\u27e8cos theta *. cos phi, cos theta *. sin phi, sin theta\u27e9", "edit": "polar angle measured from the equator", "claim": "C18"}
{"id": "M119", "file": "Verif/Model/Source.lean", "definition": "Source.mkParticle", "old": "if s.type = \"Positron\" \u2228 s.type = \"positron\" then\n    .ok (.newLeptonE (lit 1) (lit 1)", "new": "if s.type = \"Positron\" \u2228 s.type = \"positron\" then\n    .ok (.newLeptonE (lit 1) (lit (-1))", "edit": "positrons created as electrons", "claim": "C17 C19"}
{"id": "M120", "file": "Verif/Model/Source.lean", "definition": "Source.sampleEnergy", "old": ".ok (sampleNorm energy1 energy2 raw)", "new": ".ok (sampleNorm energy2 energy1 raw)", "edit": "mean and spread swapped", "claim": "C91"}
{"id": "M121", "file": "Verif/Model/Source.lean", "definition": "Source.generateList", "old": ".add s.position", "new": ".sub s.position", "edit": "source offset with the wrong sign", "claim": "C18"}
{"id": "M122", "file": "Verif/Model/Particle.lean", "definition": "initDepth", "old": "log (lit 1 -. u)", "new": "log (lit 1 +. u)", "edit": "optical depth negative", "claim": "C16"}
{"id": "M123", "file": "Verif/Model/Particle.lean", "definition": "Particle.gamma", "old": "sqrt (lit 1 +. p.momentum.mag2", "new": "sqrt (p.momentum.mag2", "edit": "rest energy missing", "claim": "C12"}
{"id": "M124", "file": "Verif/Model/Particle.lean", "definition": "Particle.energy", "old": "| _ => p.mass *. p.gamma", "new": "| _ => p.gamma", "edit": "energy without the mass", "claim": "C12"}
{"id": "M125", "file": "Verif/Model/Particle.lean", "definition": "Particle.beta", "old": "lit 1 /. (p.gamma *. p.gamma)", "new": "lit 1 /. p.gamma", "edit": "beta with one power of gamma", "claim": "C12"}
{"id": "M126", "file": "Verif/Model/Particle.lean", "definition": "Particle.updateTrack", "old": "momHistory := p.momHistory ++ [momentum]", "new": "momHistory := p.momHistory ++ [p.momentum]", "edit": "old momentum recorded", "claim": "C14"}
{"id": "M127", "file": "Verif/Model/Particle.lean", "definition": "Particle.updateTrack", "old": "gammaHistory := p.gammaHistory ++ [p'.gamma]", "new": "gammaHistory := p.gammaHistory", "edit": "gamma not recorded", "claim": "C14"}
{"id": "M128", "file": "Verif/Model/Particle.lean", "definition": "Particle.updateOpticalDepth", "old": "p.opticalDepth -. dtau", "new": "p.opticalDepth +. dtau", "edit": "optical depth increased", "claim": "C16"}
{"id": "M129", "file": "Verif/Model/Particle.lean", "definition": "PList.add", "old": "l.items.length < l.maxParticles", "new": "l.items.length \u2264 l.maxParticles", "edit": "one particle too many", "claim": "C13"}
{"id": "M130", "file": "Verif/Model/Particle.lean", "definition": "PList.add", "old": "l.items ++ [p] }", "new": "p :: l.items }", "edit": "particles added at the front", "claim": "C13 C44"}
{"id": "M131", "file": "Verif/Model/Particle.lean", "definition": "Particle.leptonKind", "old": ".electron else .positron", "new": ".positron else .electron", "edit": "names of the leptons swapped", "claim": "C43 C19 C36"}
{"id": "M132", "file": "Verif/Model/Numerics.lean", "definition": "firstAbove", "old": "if q <. s then some i", "new": "if q <=. s then some i", "edit": "bracket at the sample itself", "claim": "C05"}
{"id": "M133", "file": "Verif/Model/Numerics.lean", "definition": "interpolate1D", "old": "(q -. sP) /. (sEnd -. sP)", "new": "(q -. sEnd) /. (sEnd -. sP)", "edit": "upper extrapolation corrected", "claim": "C06"}
{"id": "M134", "file": "Verif/Model/Numerics.lean", "definition": "interpolate1D", "old": "if q <. s0 then\n", "new": "if q <=. s0 then\n", "edit": "lower boundary case", "claim": "C05 C06"}
{"id": "M135", "file": "Verif/Model/Numerics.lean", "definition": "arrayIndex", "old": "if (q -. sl) <. (sh -. q) then .ok low else .ok (low + 1)", "new": "if (sh -. q) <. (q -. sl) then .ok low else .ok (low + 1)", "edit": "farther sample returned", "claim": "C07"}
{"id": "M136", "file": "Verif/Model/Numerics.lean", "definition": "arrayIndex", "old": "if low < usub n 1 then", "new": "if low < usub n 2 then", "edit": "last interval skipped", "claim": "C07"}
{"id": "M137", "file": "Verif/Model/Numerics.lean", "definition": "closestPoints", "old": "if low < usub n 2 then", "new": "if low < usub n 1 then", "edit": "last interval accepted", "claim": "C08"}
{"id": "M138", "file": "Verif/Model/Numerics.lean", "definition": "closestPoints", "old": "(q -. sl) /. (sh -. sl))", "new": "(sh -. q) /. (sh -. sl))", "edit": "fraction from the wrong end", "claim": "C08"}
{"id": "M139", "file": "Verif/Model/Numerics.lean", "definition": "simpsonsRule", "old": "sumStep2 (lit 4) integrand (usub64 integrand.length 1) 1 f0", "new": "sumStep2 (lit 2) integrand (usub64 integrand.length 1) 1 f0", "edit": "weights of odd points", "claim": "C09"}
{"id": "M140", "file": "Verif/Model/Numerics.lean", "definition": "simpsonsRule", "old": "(usub64 integrand.length 2) 2 s1", "new": "(usub64 integrand.length 1) 2 s1", "edit": "even sum one too far", "claim": "C09"}
{"id": "M141", "file": "Verif/Model/Numerics.lean", "definition": "scanLow", "old": "if s <. q then scanLow", "new": "if s <=. q then scanLow", "edit": "sample equal to the query counted as below", "claim": "C08 C07"}
{"id": "M142", "file": "Verif/Model/MCTools.lean", "definition": "randDiscrete", "old": "| some k => k + 1", "new": "| some k => k", "edit": "index off by one", "claim": "C10"}
{"id": "M143", "file": "Verif/Model/MCTools.lean", "definition": "randDiscrete", "old": "fun c => rand <. c", "new": "fun c => c <. rand", "edit": "first cumulative weight below", "claim": "C10"}
{"id": "M144", "file": "Verif/Model/MCTools.lean", "definition": "setSeed", "old": "{ s with crand := srand seed }", "new": "s", "edit": "srand not called", "claim": "C11", "tightened": ["C11_c_library_partial"]}
{"id": "M145", "file": "Verif/Model/MCTools.lean", "definition": "sampleUniform", "old": ".ok (us.map fun u => u *. (high -. low) +. low)", "new": ".ok (us.map fun u => u *. high +. low)", "edit": "range not reduced by the lower limit", "claim": "C20 C19"}
{"id": "M146", "file": "Verif/Model/ThreeVector.lean", "definition": "V3.cross", "old": "a.z *. b.x -. a.x *. b.z", "new": "a.x *. b.z -. a.z *. b.x", "edit": "y component of the cross product with the wrong sign", "claim": "C01"}
{"id": "M147", "file": "Verif/Model/ThreeVector.lean", "definition": "V3.direction", "old": "let _ := norm dir\n  dir", "new": "norm dir", "edit": "Direction corrected to return a unit vector", "claim": "C04"}
{"id": "M148", "file": "Verif/Model/ThreeVector.lean", "definition": "M3.inverse", "old": "m.m02 *. m.m21 -. m.m01 *. m.m22", "new": "m.m01 *. m.m22 -. m.m02 *. m.m21", "edit": "sign of one cofactor", "claim": "C02"}
{"id": "M149", "file": "Verif/Model/ThreeVector.lean", "definition": "M3.det", "old": "+. m.m02 *.", "new": "-. m.m02 *.", "edit": "sign in the determinant", "claim": "C02"}
{"id": "M150", "file": "Verif/Model/ThreeVector.lean", "definition": "V3.rotateToAxis", "old": "lit 1 /. (lit 1 +. cos)", "new": "lit 1 /. (lit 1 -. cos)", "edit": "Rodrigues formula", "claim": "C03"}
{"id": "M151", "file": "Verif/Model/ThreeVector.lean", "definition": "V3.rotateToAxis", "old": "m00 := lit (-1), m11 := lit 1, m22 := lit (-1)", "new": "m00 := lit (-1), m11 := lit (-1), m22 := lit (-1)", "edit": "reflection instead of rotation for the opposite direction", "claim": "C03"}
{"id": "M152", "file": "Verif/Model/ThreeVector.lean", "definition": "skewMat", "old": "m01 := -. c.z, m02 := c.y", "new": "m01 := c.z, m02 := c.y", "edit": "sign in the skew matrix", "claim": "C03"}
{"id": "M153", "file": "Verif/Model/ThreeVector.lean", "definition": "V3.rotateToAxis", "old": "<=. lit 1e-10 then", "new": "<=. lit 1 then", "edit": "opposite-direction case taken too often", "claim": "C03"}
{"id": "M154", "file": "Verif/Model/Units.lean", "definition": "unitsSI", "old": "refLength := SI_c /. refFreq", "new": "refLength := refFreq /. SI_c", "edit": "reference length inverted", "claim": "C74"}
{"id": "M155", "file": "Verif/Model/Units.lean", "definition": "UnitsSystem.new", "old": ".ok unitsSI else .exit 1", "new": ".ok unitsSI else .ok unitsSI", "edit": "unknown units accepted", "claim": "C66"}
{"id": "M156", "file": "Verif/Model/Geant.lean", "definition": "shotOf", "old": "energy := p.energy /. (Units.unitsSI : Units.UnitsSystem D).g4Energy\n  direction", "new": "energy := p.energy *. (Units.unitsSI : Units.UnitsSystem D).g4Energy\n  direction", "edit": "energy multiplied by the unit instead of divided", "claim": "C82"}
{"id": "M157", "file": "Verif/Model/Geant.lean", "definition": "shotOf", "old": "if p.name = \"Electron\" then .electron else if p.name = \"Positron\" then .positron", "new": "if p.name = \"Electron\" then .positron else if p.name = \"Positron\" then .electron", "edit": "electrons and positrons swapped", "claim": "C82"}
{"id": "M158", "file": "Verif/Model/Geant.lean", "definition": "Gen.new", "old": "none, 0, -1\u27e9", "new": "none, 0, 0\u27e9", "edit": "secondary index starts at 0", "claim": "C76"}
{"id": "M159", "file": "Verif/Model/Geant.lean", "definition": "Gen.withEvent", "old": "currentSecondary := lastIndex es.list.nPart", "new": "currentSecondary := lastIndex (es.list.nPart - 1)", "edit": "last particle of each event skipped", "claim": "C76"}
{"id": "M160", "file": "Verif/Model/Geant.lean", "definition": "Gen.withEvent", "old": "currentEvent := RunMgr.u32 (g.currentEvent + 1)", "new": "currentEvent := g.currentEvent", "edit": "event counter not advanced", "claim": "C76"}
{"id": "M161", "file": "Verif/Model/Geant.lean", "definition": "fire", "old": "currentSecondary := g.currentSecondary - 1", "new": "currentSecondary := g.currentSecondary - 2", "edit": "every other particle skipped", "claim": "C76"}
{"id": "M162", "file": "Verif/Model/Geant.lean", "definition": "Emitter.new", "old": "process := .is none, pusher", "new": "process := .indeterminate, pusher", "edit": "process pointer not initialised", "claim": "C77"}
{"id": "M163", "file": "Verif/Model/Geant.lean", "definition": "Emitter.postStep", "old": "let h2 \u2190 e2.photonList.delete h1\n    .ok { e2 with heap := h2 }", "new": ".ok { e2 with heap := h1 }", "edit": "photon list not freed", "claim": "C77"}
{"id": "M164", "file": "Verif/Model/Geant.lean", "definition": "Emitter.destroy", "old": "let h \u2190 e.part.delete h\n", "new": "", "edit": "destructor no longer frees the particle", "claim": "C77"}
{"id": "M165", "file": "Verif/Model/Geant.lean", "definition": "meanFreePath", "old": "else if switch = false then (true, true)", "new": "else if switch = true then (true, true)", "edit": "switch read the wrong way round", "claim": "C84"}
{"id": "M166", "file": "Verif/Model/Geant.lean", "definition": "meanFreePath", "old": "if inField <. lit 1 then (false, switch)", "new": "if inField <. lit 1 then (false, false)", "edit": "switch reset outside the field", "claim": "C84"}
{"id": "M167", "file": "Verif/Model/Geant.lean", "definition": "leptonOf", "old": "(t.kinetic *. us.g4Energy)", "new": "((t.kinetic +. t.mass) *. us.g4Energy)", "edit": "rest energy added", "claim": "C83"}
{"id": "M168", "file": "Verif/Model/Geant.lean", "definition": "leptonOf", "old": "(t.position.smul us.g4Length)", "new": "t.position", "edit": "position not converted", "claim": "C119"}
{"id": "M169", "file": "Verif/Model/Geant.lean", "definition": "changeOf", "old": "energy := s.part.energy /. e\n", "new": "energy := (s.part.energy -. s.part.mass) /. e\n", "edit": "kinetic instead of total energy proposed", "claim": "C83"}
{"id": "M170", "file": "Verif/Model/Geant.lean", "definition": "changeOf", "old": "secondaries := s.list.items.map", "new": "secondaries := s.list.items.tail.map", "edit": "first photon not handed over", "claim": "C83"}
{"id": "M171", "file": "Verif/Model/Geant.lean", "definition": "stepOnce", "old": ".ok \u27e8p, l, r, s.time +. c.dt\u27e9", "new": ".ok \u27e8p, l, r, s.time +. c.tEnd\u27e9", "edit": "a single time step only", "claim": "C83"}
{"id": "M172", "file": "Verif/Model/Geant.lean", "definition": "stepOnce", "old": "{ s.list with items := s.list.items.map (pushParticle lorentzForce c.emission.field c.dt) }", "new": "s.list", "edit": "photons not pushed", "claim": "C83"}
{"id": "M173", "file": "Verif/Model/Geant.lean", "definition": "tfPhotons", "old": "let p := scale electron photParams\n", "new": "let p := scale photParams photParams\n", "edit": "photon momentum from the parameters alone", "claim": "C85"}
{"id": "M174", "file": "Verif/Model/Geant.lean", "definition": "tfPostStep", "old": "energy := sqrt (p.mag2 +. lit 1) /.", "new": "energy := p.mag2 /.", "edit": "surrogate energy is the squared momentum", "claim": "C117"}
{"id": "M175", "file": "Verif/Model/Geant.lean", "definition": "tfPhotons", "old": "(p.mag2 /. (Units", "new": "(p.mag /. (Units", "edit": "photon energy the length of the momentum", "claim": "C85"}
{"id": "M176", "file": "Verif/Model/RunManager.lean", "definition": "free", "old": ".ok { h with live := h.live.erase a }", "new": ".ok h", "edit": "freed objects stay alive", "claim": "C70 C81"}
{"id": "M177", "file": "Verif/Model/RunManager.lean", "definition": "destroy", "old": "let h \u2190 h.free m.generator\n  h.free m.pusher", "new": "h.free m.generator", "edit": "pusher leaked by the destructor", "claim": "C70 C81"}
{"id": "M178", "file": "Verif/Model/RunManager.lean", "definition": "setTime", "old": "timeStep := timeStep /. u.refTime", "new": "timeStep := timeStep *. u.refTime", "edit": "time step converted the wrong way", "claim": "C74 C72"}
{"id": "M179", "file": "Verif/Model/RunManager.lean", "definition": "setTime", "old": "timeEnd := timeEnd /. u.refTime", "new": "timeEnd := timeEnd", "edit": "end time not converted", "claim": "C74 C72"}
{"id": "M180", "file": "Verif/Model/RunManager.lean", "definition": "FieldArgs.convert", "old": "duration := a.duration /. u.refTime\n    waist", "new": "duration := a.duration /. u.refLength\n    waist", "edit": "pulse duration converted as a length", "claim": "C129"}
{"id": "M181", "file": "Verif/Model/RunManager.lean", "definition": "FieldArgs.convert", "old": "waist := a.waist /. u.refLength", "new": "waist := a.waist", "edit": "waist not converted", "claim": "C129"}
{"id": "M182", "file": "Verif/Model/RunManager.lean", "definition": "GenArgs.convert", "old": "energyParam2 := a.energyParam2 /. u.refEnergy", "new": "energyParam2 := a.energyParam2", "edit": "second energy parameter not converted", "claim": "C74"}
{"id": "M183", "file": "Verif/Model/RunManager.lean", "definition": "GenArgs.convert", "old": "position := a.position.divs u.refLength", "new": "position := a.position", "edit": "source position not converted", "claim": "C74"}
{"id": "M184", "file": "Verif/Model/RunManager.lean", "definition": "setField", "old": "else { m with fieldSet := false }", "new": "else m", "edit": "an unknown field type keeps the old field", "claim": "C72"}
{"id": "M185", "file": "Verif/Model/RunManager.lean", "definition": "setPhysics", "old": "physics = \"clasical\"", "new": "physics = \"classical\"", "edit": "spelling corrected", "claim": "C71"}
{"id": "M186", "file": "Verif/Model/RunManager.lean", "definition": "setSampleFraction", "old": "(lit 0 <=. x) && (x <=. lit 1)", "new": "(lit 0 <=. x)", "edit": "sample fractions above one accepted", "claim": "C75"}
{"id": "M187", "file": "Verif/Model/RunManager.lean", "definition": "freeOld", "old": "let h \u2190 h.free m.field\n  .ok { m with", "new": ".ok { m with", "edit": "old field leaked", "claim": "C70 C81"}
{"id": "M188", "file": "Verif/Model/RunManager.lean", "definition": "incomplete", "old": "!m.fieldSet || !m.physSet || !m.genSet", "new": "!m.fieldSet || !m.genSet", "edit": "run without physics accepted", "claim": "C72"}
{"id": "M189", "file": "Verif/Model/RunManager.lean", "definition": "physicsOf", "old": "(modLandauForce, .continuous (emissionOf t m) false)", "new": "(landauForce, .continuous (emissionOf t m) false)", "edit": "wrong pusher for semiclassical physics", "claim": "C71"}
{"id": "M190", "file": "Verif/Model/RunManager.lean", "definition": "simOf", "old": "(if m.useBW then", "new": "(if true then", "edit": "pair production always on", "claim": "C71"}
{"id": "M191", "file": "Verif/Model/RunManager.lean", "definition": "makeObjects", "old": "{ m with heap := h, field := pf, pusher := pp, procs := [pe] }", "new": "{ m with heap := h, pusher := pp, procs := [pe] }", "edit": "new field not stored", "claim": "C70 C81"}
{"id": "M192", "file": "Verif/Model/RunManager.lean", "definition": "u32", "old": "(n % 2 ^ 32).toNat", "new": "n.toNat", "edit": "negative event numbers become zero", "claim": "C73"}
{"id": "M193", "file": "Verif/Model/RunManager.lean", "definition": "prepare", "old": "if omp = false \u2227 threads \u2260 1 then", "new": "if omp = false \u2227 threads = 0 then", "edit": "several threads accepted without OpenMP", "claim": "C72"}
{"id": "M194", "file": "Verif/Model/RunManager.lean", "definition": "prepare", "old": "if threads < 0 then", "new": "if threads \u2264 0 then", "edit": "zero threads raise an exception", "claim": "C72"}
{"id": "M195", "file": "Verif/Model/RunManager.lean", "definition": "pushRow", "old": ".ok (v.set tid (old ++ row))", "new": ".ok (v.set tid row)", "edit": "earlier rows of a thread overwritten", "claim": "C73"}
{"id": "M196", "file": "Verif/Model/RunManager.lean", "definition": "inputRow", "old": "[p.momentum.x *. u.refMomentum, p.momentum.y *. u.refMomentum, p.momentum.z *. u.refMomentum,\n    p.position.x *. u.refLength, p.position.y *. u.refLength, p.position.z *. u.refLength]", "new": "[p.momentum.x *. u.refMomentum, p.momentum.z *. u.refMomentum, p.momentum.y *. u.refMomentum,\n    p.position.x *. u.refLength, p.position.y *. u.refLength, p.position.z *. u.refLength]", "edit": "momentum components swapped in the input rows", "claim": "C73 C74"}
{"id": "M197", "file": "Verif/Model/RunManager.lean", "definition": "finalRow", "old": "p.position.z *. u.refLength, p.weight]", "new": "p.position.z *. u.refLength, lit 1]", "edit": "weight not stored", "claim": "C73 C74", "tightened": ["C73_content", "C74_position", "C74_energy", "C124_arrays"]}
{"id": "M198", "file": "Verif/Model/RunManager.lean", "definition": "storeFinal", "old": "if p.charge ==. lit (-1) then do\n    let v \u2190 pushRow rs.electrons", "new": "if p.charge ==. lit 1 then do\n    let v \u2190 pushRow rs.electrons", "edit": "positrons stored as electrons", "claim": "C73"}
{"id": "M199", "file": "Verif/Model/RunManager.lean", "definition": "getPhotons", "old": "rs.photons.flatten.length / 7 : Nat), 7", "new": "rs.photons.flatten.length / 6 : Nat), 6", "edit": "six columns for photons", "claim": "C73"}
{"id": "M200", "file": "Verif/Model/RunManager.lean", "definition": "getPositrons", "old": "rs.positrons.flatten.length / 7 : Nat), 7, rs.positrons.flatten", "new": "rs.electrons.flatten.length / 7 : Nat), 7, rs.electrons.flatten", "edit": "getPositrons returns the electrons", "claim": "C73"}
{"id": "M201", "file": "Verif/Model/TableFiles.lean", "definition": "IStream.double", "old": "else (x, \u27e8s.text, false\u27e9)\n\n/-- `stream >> n`", "new": "else (some (lit 0), \u27e8s.text, false\u27e9)\n\n/-- `stream >> n`", "edit": "a failed stream stores zero", "claim": "C86 C88"}
{"id": "M202", "file": "Verif/Model/TableFiles.lean", "definition": "IStream.double", "old": "| none => (some (lit 0), \u27e8[], false\u27e9)", "new": "| none => (some (lit 0), \u27e8s.text, true\u27e9)", "edit": "stream stays good after garbage", "claim": "C86 C88"}
{"id": "M203", "file": "Verif/Model/TableFiles.lean", "definition": "IStream.uint", "old": "if neg then (2 ^ 32 - v) % 2 ^ 32 else v", "new": "v", "edit": "sign of a count ignored", "claim": "C86 C88"}
{"id": "M204", "file": "Verif/Model/TableFiles.lean", "definition": "readArray", "old": "let (xs, s) := readArray n s\n    (x :: xs, s)", "new": "let (xs, _) := readArray n s\n    (x :: xs, s)", "edit": "stream not advanced past the array", "claim": "C86"}
{"id": "M205", "file": "Verif/Model/TableFiles.lean", "definition": "readRows", "old": "let (r, s) := readArray n s\n    let (rs, s) := readRows n m s\n    (r :: rs, s)", "new": "let (r, _) := readArray n s\n    let (rs, s) := readRows n m s\n    (r :: rs, s)", "edit": "every row is the first one", "claim": "C86"}
{"id": "M206", "file": "Verif/Model/TableFiles.lean", "definition": "readPairs", "old": ".ok (x :: xs, y :: ys)", "new": ".ok (y :: xs, x :: ys)", "edit": "axis and data swapped", "claim": "C86"}
{"id": "M207", "file": "Verif/Model/TableFiles.lean", "definition": "openTable", "old": "files (path ++ name.toList)", "new": "files name.toList", "edit": "table path ignored", "claim": "C88 C86"}
{"id": "M208", "file": "Verif/Model/TableFiles.lean", "definition": "etaAxisOf", "old": "(logMax -. logMin) /. (lit etaLength -. lit 1)", "new": "(logMax -. logMin) /. lit etaLength", "edit": "eta axis one step short", "claim": "C87"}
{"id": "M209", "file": "Verif/Model/TableFiles.lean", "definition": "chiRow", "old": "log10 (lit 2) -. logMinChi) /. (lit etaLength -. lit 1)", "new": "log10 (lit 2) -. logMinChi) /. (lit chiLength -. lit 1)", "edit": "chi axis divided by the number of chi values", "claim": "C87"}
{"id": "M210", "file": "Verif/Model/TableFiles.lean", "definition": "loadEmission", "old": "let (chiLength, s) := s.uint none\n  let (logMin, s) := s.double (none : Option D)\n  let (logMax, s) := s.double (none : Option D)", "new": "let (chiLength, s) := s.uint none\n  let (logMax, s) := s.double (none : Option D)\n  let (logMin, s) := s.double (none : Option D)", "edit": "limits of the eta axis swapped", "claim": "C86"}
{"id": "M211", "file": "Verif/Model/TableFiles.lean", "definition": "loadEmission", "old": "openTable files path \"/chimin.table\"", "new": "openTable files path \"/hsokolov.table\"", "edit": "wrong file for the minima", "claim": "C86"}
{"id": "M212", "file": "Verif/Model/TableFiles.lean", "definition": "loadPairs", "old": "openTable files path \"/epsilon.table\"", "new": "openTable files path \"/log_chi.table\"", "edit": "wrong file for the shares", "claim": "C86"}
{"id": "M213", "file": "Verif/Model/TableFiles.lean", "definition": "readSplit", "old": "let (e, epsS) := epsS.double none\n    let (row, fractS) := readArray len fractS\n    let (cs, es, rows) \u2190 readSplit len n chiS epsS fractS chi", "new": "let (e, _) := epsS.double none\n    let (row, fractS) := readArray len fractS\n    let (cs, es, rows) \u2190 readSplit len n chiS epsS fractS chi", "edit": "shares not advanced", "claim": "C86"}
{"id": "M214", "file": "Verif/Model/TableFiles.lean", "definition": "emissionDelete", "old": ".delete \u27e8\"phEn_chiMinAxis\", none\u27e9, ", "new": "", "edit": "minima never freed", "claim": "C89"}
{"id": "M215", "file": "Verif/Model/TableFiles.lean", "definition": "pairsDelete", "old": "[.delete \u27e8\"t_dataTable\", none\u27e9, .delete \u27e8\"t_chiAxis\", none\u27e9,", "new": "[.delete \u27e8\"t_dataTable\", none\u27e9, .delete \u27e8\"t_dataTable\", none\u27e9,", "edit": "table freed twice", "claim": "C89"}
{"id": "M216", "file": "Verif/Model/Threads.lean", "definition": "step", "old": "else if seen.length < 11 then\n      if s.count < n then .ok (see t todo j seen s) else .ub \"out-of-bounds read\"", "new": "else if seen.length < 11 then .ok (see t todo j seen s)", "edit": "unchecked reads", "claim": "C57"}
{"id": "M217", "file": "Verif/Model/Threads.lean", "definition": "step", "old": "count := seen.getLastD 0 + 1", "new": "count := s.count + 1", "edit": "atomic increment", "claim": "C57"}
{"id": "M218", "file": "Verif/Model/Threads.lean", "definition": "step", "old": "if s.count = n then .exit 1 else", "new": "if n < s.count then .exit 1 else", "edit": "depletion test off by one", "claim": "C57", "tightened": ["C57_depleted"]}
{"id": "M219", "file": "Verif/Model/Threads.lean", "definition": "nextAccess", "old": "some (decide (12 \u2264 seen.length))", "new": "some false", "edit": "the write is taken for a read", "claim": "C57"}
{"id": "M220", "file": "Verif/Model/Threads.lean", "definition": "Source.listFrom", "old": "let pz \u2190 rd s.zPos (seen.getD 4 0)", "new": "let pz \u2190 rd s.zPos (seen.getD 3 0)", "edit": "z uses the index read for y", "claim": "C57", "tightened": ["C57_mixed_event"]}
{"id": "M221", "file": "Verif/Model/Threads.lean", "definition": "Source.listFrom", "old": "let energy \u2190 rd s.energy (seen.getD 10 0)", "new": "let energy \u2190 rd s.energy (seen.getD 0 0)", "edit": "energy uses the first index read", "claim": "C57", "tightened": ["C57_mixed_event"]}
{"id": "M222", "file": "Verif/Model/Program.lean", "definition": "storePrimaryIf", "old": "if output = true then m.storePrimary l j else .ok m", "new": ".ok m", "edit": "primaries not stored", "claim": "C93 C94"}
{"id": "M223", "file": "Verif/Model/Program.lean", "definition": "storeFinalIf", "old": "if output = true then m.storeFinal l j else .ok m", "new": "m.storeFinal l j", "edit": "final particles stored without being asked for", "claim": "C93 C94"}
{"id": "M224", "file": "Verif/Model/Program.lean", "definition": "storeTrackIf", "old": "if tracking = true then m.storeTrack l j else m", "new": "if tracking = true then m else m.storeTrack l j", "edit": "tracks stored when tracking is off", "claim": "C93 C94"}
{"id": "M225", "file": "Verif/Model/Program.lean", "definition": "runEvent", "old": "let hists \u2190 Timed.lift (fillRest e.list e.histCount e.hists)", "new": "let hists := e.hists", "edit": "left-over histograms not filled", "claim": "C93 C94 C95"}
{"id": "M226", "file": "Verif/Model/Program.lean", "definition": "runEvent", "old": "pure (source, \u27e8e.rng, hists", "new": "pure (source, \u27e8s.2.rng, hists", "edit": "random numbers reused for every event", "claim": "C93 C94 C95 C128"}
{"id": "M227", "file": "Verif/Model/Program.lean", "definition": "runEvents", "old": "runEvents cfg fuel output tracking k (j + 1) s", "new": "runEvents cfg fuel output tracking k j s", "edit": "all events have the number 0", "claim": "C93 C94 C91"}
{"id": "M228", "file": "Verif/Model/Program.lean", "definition": "runSource", "old": "s.1.nPart 0\n", "new": "(s.1.nPart - 1) 0\n", "edit": "last event not run", "claim": "C91 C93 C94"}
{"id": "M229", "file": "Verif/Model/Program.lean", "definition": "outputHists", "old": "let m \u2190 m.outputHist h\n    outputHists m hs", "new": "outputHists m hs", "edit": "histograms not written", "claim": "C93"}
{"id": "M230", "file": "Verif/Model/Program.lean", "definition": "makeSources", "old": "makeSources g raws (i + 1) ps", "new": "makeSources g raws i ps", "edit": "sources share their random numbers", "claim": "C91", "tightened": ["C91_sources"]}
{"id": "M231", "file": "Verif/Model/Program.lean", "definition": "makeSources", "old": ".ok ((s, p.output) :: ss)", "new": ".ok ((s, true) :: ss)", "edit": "output flag ignored", "claim": "C91", "tightened": ["C91_sources"]}
{"id": "M232", "file": "Verif/Model/OutputMpi.lean", "definition": "addInt", "old": "-2 ^ 31 \u2264 a + b \u2227 a + b < 2 ^ 31", "new": "True", "edit": "overflow ignored", "claim": "C55 C56"}
{"id": "M233", "file": "Verif/Model/OutputMpi.lean", "definition": "copyEventsL", "old": "copyEventsL srcs (counts.drop 1) dst idx", "new": "copyEventsL srcs counts dst idx", "edit": "counts of the first event used for all", "claim": "C55 C56"}
{"id": "M234", "file": "Verif/Model/OutputMpi.lean", "definition": "copyPrimaryL", "old": "copyPrimaryL srcs (i + 1) dst", "new": "copyPrimaryL srcs i dst", "edit": "all primaries in the first row", "claim": "C55 C56"}
{"id": "M235", "file": "Verif/Model/OutputMpi.lean", "definition": "recvSizes", "old": "let p \u2190 recvInt i 3\n", "new": "let p \u2190 recvInt i 4\n", "edit": "wrong tag for the positron size", "claim": "C55 C56"}
{"id": "M236", "file": "Verif/Model/OutputMpi.lean", "definition": "recvPart", "old": "(size.tdiv 8).toNat 0 dst.1", "new": "((size.tdiv 8).toNat - 1) 0 dst.1", "edit": "last row of each rank lost", "claim": "C55 C56"}
{"id": "M237", "file": "Verif/Model/OutputMpi.lean", "definition": "outputEventsMPI", "old": "if id = 0 then masterEvents S nProc m l", "new": "if id = 1 then masterEvents S nProc m l", "edit": "rank 1 is the master", "claim": "C55 C56"}
{"id": "M238", "file": "Verif/Model/OutputMpi.lean", "definition": "recvHists", "old": "let values \u2190 lift (addBins values b 0)\n    recvHists nBins c values", "new": "recvHists nBins c values", "edit": "other ranks not added to the histogram", "claim": "C55 C56"}
{"id": "M239", "file": "Verif/Model/OutputMpi.lean", "definition": "runRank", "old": "let l \u2190 runSources S nProc id sources l\n  runHists", "new": "let l \u2190 runSources S nProc id sources.tail l\n  runHists", "edit": "first source not written", "claim": "C55 C56"}
{"id": "M240", "file": "Verif/Model/OutputMpi.lean", "definition": "asDoubles", "old": "(xs.length : Int) \u2264 n then", "new": "(xs.length : Int) < n then", "edit": "full messages truncated", "claim": "C55 C56"}
{"id": "M241", "file": "Verif/Model/Output.lean", "definition": "createDataSet", "old": "if f.exists_ p = false \u2227 f.hasGroup p.dropLast then do", "new": "if f.hasGroup p.dropLast then do", "edit": "existing data sets overwritten", "claim": "C53 C92 C54"}
{"id": "M242", "file": "Verif/Model/Output.lean", "definition": "new", "old": "let f \u2190 f.addGroup [\"Fields\"]\n  let f \u2190 f.addGroup [\"Histograms\"]", "new": "let f \u2190 f.addGroup [\"Histograms\"]", "edit": "group Fields not asked for", "claim": "C54 C53"}
{"id": "M243", "file": "Verif/Model/Output.lean", "definition": "initSource", "old": "photonCount := List.replicate nEvents 0 }", "new": "photonCount := m.photonCount }", "edit": "photon counters not reset", "claim": "C51"}
{"id": "M244", "file": "Verif/Model/Output.lean", "definition": "countName", "old": "if p.name = name then u32 (n + 1) else n", "new": "u32 (n + 1)", "edit": "all particles counted", "claim": "C51"}
{"id": "M245", "file": "Verif/Model/Output.lean", "definition": "fillAll", "old": "let s \u2190 fillOne eventID s p\n    fillAll eventID s ps", "new": "fillOne eventID s p", "edit": "only the first particle stored", "claim": "C51"}
{"id": "M246", "file": "Verif/Model/Output.lean", "definition": "copyPrimary", "old": "copyPrimary srcs (i + 1) dst\n", "new": "copyPrimary srcs i dst\n", "edit": "all primaries in the first row", "claim": "C51"}
{"id": "M247", "file": "Verif/Model/Output.lean", "definition": "addTable", "old": "if 0 < t.1 then f.addArray2D", "new": "if 1 < t.1 then f.addArray2D", "edit": "tables with one row not written", "claim": "C51"}
{"id": "M248", "file": "Verif/Model/Output.lean", "definition": "outputSource", "old": "addTable f g \"Photons\"", "new": "addTable f e \"Photons\"", "edit": "electrons written as photons", "claim": "C51"}
{"id": "M249", "file": "Verif/Model/Output.lean", "definition": "writeTracks", "old": "writeTracks u f (i + 1) ts", "new": "writeTracks u f i ts", "edit": "all tracks under the same name", "claim": "C92"}
{"id": "M250", "file": "Verif/Model/Output.lean", "definition": "outputEvents", "old": "if outTrack then m.outputTracks else .ok m", "new": "if outTrack then .ok m else m.outputTracks", "edit": "track flag negated", "claim": "C80 C92"}
{"id": "M251", "file": "Verif/Model/Output.lean", "definition": "histSets", "old": "(h.values.map some) h.nBins (path ++ [\"BinValues\"])", "new": "(h.centres.map some) h.nBins (path ++ [\"BinValues\"])", "edit": "centres written as values", "claim": "C92"}
{"id": "M252", "file": "Verif/Model/Output.lean", "definition": "gridJ", "old": "let b \u2190 gridK g ny nz i j nz 0 b", "new": "let b \u2190 gridK g ny nz i j ny 0 b", "edit": "inner loop with the wrong length", "claim": "C58"}
{"id": "M253", "file": "Verif/Model/Output.lean", "definition": "fieldSets", "old": "(\u00b7.2.y) (group ++ [\"B1\"])", "new": "(\u00b7.1.y) (group ++ [\"B1\"])", "edit": "electric field written as magnetic", "claim": "C92"}
{"id": "M254", "file": "Verif/Model/Output.lean", "definition": "outFieldTimes", "old": "outFieldTimes field xs ys zs (n + 1) ts f", "new": "outFieldTimes field xs ys zs (n + 2) ts f", "edit": "field groups numbered by twos", "claim": "C92 C58"}
{"id": "M255", "file": "Verif/Model/Output.lean", "definition": "historySets", "old": "f.addArray1D (p.gammaHistory.map some) p.gammaHistory.length", "new": "f.addArray1D (p.timeHistory.map some) p.gammaHistory.length", "edit": "times written as gamma", "claim": "C92"}
{"id": "M256", "file": "Verif/Model/Output.lean", "definition": "listTracksLoop", "old": "listTracksLoop u name (i + 1) ps f", "new": "listTracksLoop u name (i + 2) ps f", "edit": "tracks numbered by twos", "claim": "C92"}
{"id": "M257", "file": "Verif/Model/Output.lean", "definition": "propertyCells", "old": "some p.position.x, some p.position.y, some p.position.z]\n      ++", "new": "some p.momentum.x, some p.momentum.y, some p.momentum.z]\n      ++", "edit": "momentum instead of position", "claim": "C92"}
{"id": "M258", "file": "Verif/Model/Ini.lean", "definition": "rstrip", "old": "(s.reverse.dropWhile isSpace).reverse", "new": "s", "edit": "trailing blanks kept", "claim": "C59 C62"}
{"id": "M259", "file": "Verif/Model/Ini.lean", "definition": "strncpy50", "old": "s.take 49", "new": "s.take 50", "edit": "section names one character longer", "claim": "C59 C61"}
{"id": "M260", "file": "Verif/Model/Ini.lean", "definition": "isSpace", "old": "c = ' ' || c = '\\t' ||", "new": "c = ' ' ||", "edit": "tabs are no blanks", "claim": "C60 C59 C132", "tightened": ["C132_white_space"]}
{"id": "M261", "file": "Verif/Model/Ini.lean", "definition": "handle", "old": "old ++ ['\\n'] else old", "new": "old else old", "edit": "values joined without line break", "claim": "C132", "tightened": ["C132_joined_partial"]}
{"id": "M262", "file": "Verif/Model/Ini.lean", "definition": "get", "old": "(r.values (makeKey sect name)).getD dflt", "new": "(r.values (makeKey name sect)).getD dflt", "edit": "section and name swapped", "claim": "C59 C61"}
{"id": "M263", "file": "Verif/Model/Ini.lean", "definition": "getString", "old": "if s = [] then dflt else s", "new": "s", "edit": "empty strings returned", "claim": "C66 C67"}
{"id": "M264", "file": "Verif/Model/Ini.lean", "definition": "digitVal", "old": "some (c.toNat - 48)", "new": "some (c.toNat - 49)", "edit": "digits off by one", "claim": "C90"}
{"id": "M265", "file": "Verif/Model/Ini.lean", "definition": "ofDigits", "old": "n * b + (digitVal c).getD 0", "new": "n * 10 + (digitVal c).getD 0", "edit": "base always ten", "claim": "C90"}
{"id": "M266", "file": "Verif/Model/Ini.lean", "definition": "exponent", "old": "if neg then -(ofDigits 10 ds : Int) else ofDigits 10 ds, t.drop", "new": "ofDigits 10 ds, t.drop", "edit": "sign of the exponent ignored", "claim": "C79 C64 C65"}
{"id": "M267", "file": "Verif/Model/Ini.lean", "definition": "decimal", "old": "(10 : \u211a) ^ (ex - fp.length)", "new": "(10 : \u211a) ^ ex", "edit": "decimal point ignored", "claim": "C79 C64 C65"}
{"id": "M268", "file": "Verif/Model/Ini.lean", "definition": "threeVectorOf", "old": "| [a, b] => .ok \u27e8Dbl.lit a, Dbl.lit b, Dbl.lit 0\u27e9", "new": "| [a, b] => .exit 1", "edit": "two components rejected", "claim": "C64 C65"}
{"id": "M269", "file": "Verif/Model/Ini.lean", "definition": "getInteger", "old": ".getD dflt\n\n/-- `GetReal`", "new": ".getD 0\n\n/-- `GetReal`", "edit": "default of integers ignored", "claim": "C90 C91"}
{"id": "M270", "file": "Verif/Model/Histogram.lean", "definition": "new", "old": "values := List.replicate nBins (lit 0) }", "new": "values := List.replicate nBins (lit 1) }", "edit": "bins start at one", "claim": "C45"}
{"id": "M271", "file": "Verif/Model/Histogram.lean", "definition": "incr", "old": "(n + 1) % 2 ^ 32", "new": "n + 1", "edit": "entry counter does not wrap", "claim": "C48"}
{"id": "M272", "file": "Verif/Model/Histogram.lean", "definition": "total", "old": "h.values.foldl (\u00b7 +. \u00b7) (lit 0)", "new": "h.values.foldl (\u00b7 +. \u00b7) (lit 1)", "edit": "total off by one", "claim": "C48"}
{"id": "M273", "file": "Verif/Model/Histogram.lean", "definition": "countAll", "old": "let h \u2190 h.count p.energy; countAll h ps", "new": "countAll h ps", "edit": "particles not counted", "claim": "C45 C48"}
{"id": "M274", "file": "Verif/Model/Histogram.lean", "definition": "fill", "old": "let h \u2190 h.countAll l.items\n    .ok h.normalise", "new": "h.countAll l.items", "edit": "not normalised", "claim": "C48 C41"}
{"id": "M275", "file": "Verif/Model/Histogram.lean", "definition": "addBins", "old": "(a +. b) :: addBins as bs", "new": "(a +. a) :: addBins as bs", "edit": "second histogram ignored", "claim": "C49 C56"}
{"id": "M276", "file": "Verif/Model/Pushers.lean", "definition": "pushParticleList", "old": "{ l with items := l.items.map (pushParticle push field dt) }", "new": "{ l with items := l.items.tail.map (pushParticle push field dt) }", "edit": "first particle lost", "claim": "C134", "tightened": ["C134_same"]}
{"id": "M277", "file": "Verif/Model/MCTools.lean", "definition": "randDouble", "old": ".ok (u *. (high -. low) +. low)\n  else", "new": ".ok (u *. high +. low)\n  else", "edit": "range not scaled", "claim": "C135", "tightened": ["C135_range_partial", "C135_law_partial"]}
{"id": "M278", "file": "Verif/Model/MCTools.lean", "definition": "sampleNorm", "old": "zs.map fun z => z *. sig +. mean", "new": "zs.map fun z => z *. mean +. sig", "edit": "mean and width swapped", "claim": "C91 C20"}
{"id": "M279", "file": "Verif/Model/MCTools.lean", "definition": "cumul", "old": "(acc +. w) :: cumul (acc +. w) ws", "new": "(acc +. w) :: cumul acc ws", "edit": "weights not accumulated", "claim": "C10"}
{"id": "M280", "file": "Verif/Model/SharedState.lean", "definition": "SharedHist.step", "old": "(v +. lit 1) } }.put", "new": "v } }.put", "edit": "bin written back without increment", "claim": "C106"}
{"id": "M281", "file": "Verif/Model/SharedState.lean", "definition": "SharedHist.step", "old": "if (first <. x) && (x <. last) then", "new": "if (first <. x) then", "edit": "upper limit not checked", "claim": "C106"}
{"id": "M282", "file": "Verif/Model/SharedState.lean", "definition": "SharedHist.step", "old": ".ok (s.put t xs (.sawEntries x s.hist.entries))", "new": ".ok (s.put t [] (.sawEntries x s.hist.entries))", "edit": "a thread forgets its remaining particles", "claim": "C106"}
{"id": "M283", "file": "Verif/Model/SharedState.lean", "definition": "SharedHist.step", "old": "if s.hist.nBins = 0 then .exit 1", "new": "if s.hist.nBins \u2260 0 then .exit 1", "edit": "test for an unused histogram negated", "claim": "C106"}
{"id": "M284", "file": "Verif/Model/SharedState.lean", "definition": "SharedRng.step", "old": "{ pos := p + 1,", "new": "{ pos := p,", "edit": "position not advanced", "claim": "C107"}
{"id": "M285", "file": "Verif/Model/SharedState.lean", "definition": "SharedRng.step", "old": "used := s.used ++ [(t, p)] }", "new": "used := s.used ++ [(t, s.pos)] }", "edit": "value taken after another thread has moved on", "claim": "C107"}
{"id": "M286", "file": "Verif/Model/SharedState.lean", "definition": "SharedRng.step", "old": "\u27e8k, some s.pos\u27e9", "new": "\u27e8k + 1, some s.pos\u27e9", "edit": "a draw does not count", "claim": "C107"}
{"id": "M287", "file": "Verif/Model/Processes.lean", "definition": "stochasticInteract", "old": ".ok (part.initOpticalDepth stored.2.next.1, stored.1, stored.2.next.2)", "new": ".ok (part, stored.1, stored.2)", "edit": "optical depth not redrawn after an emission", "claim": "C118"}
{"id": "M288", "file": "Verif/Model/Processes.lean", "definition": "stochasticInteract", "old": ".ok (part.initOpticalDepth stored.2.next.1, stored.1, stored.2.next.2)", "new": ".ok (part.initOpticalDepth r.next.1, stored.1, stored.2)", "edit": "the number that selects the photon also gives the next optical depth", "claim": "C118"}
{"id": "M289", "file": "Verif/Model/Processes.lean", "definition": "emissionDelta", "old": "dt *. sqrt (lit 3) *. Units.alpha *. eta", "new": "dt *. lit 3 *. Units.alpha *. eta", "edit": "square root missing in the rate", "claim": "C118 C125"}
{"id": "M290", "file": "Verif/Model/Processes.lean", "definition": "stochasticInteract", "old": "let part := part.updateTrack part.position (part.momentum.sub gammaP)", "new": "let part := part.updateTrack part.position part.momentum", "edit": "no recoil", "claim": "C118"}
{"id": "M291", "file": "Verif/Model/Processes.lean", "definition": "continuousInteract", "old": "if cfg.sampleFrac <. r1.1 then .ok (part, list, r1.2)", "new": "if r1.1 <. cfg.sampleFrac then .ok (part, list, r1.2)", "edit": "sampling decision reversed", "claim": "C125"}
{"id": "M292", "file": "Verif/Model/Processes.lean", "definition": "continuousInteract", "old": "part.weight *. deltaOD /. cfg.sampleFrac", "new": "part.weight *. deltaOD", "edit": "weight not divided by the sample fraction", "claim": "C125"}
{"id": "M293", "file": "Verif/Model/Processes.lean", "definition": "continuousInteract", "old": "continuousLoghChi cfg classical eta r2.1", "new": "continuousLoghChi cfg classical eta r1.1", "edit": "photon energy from the number that made the decision", "claim": "C125"}
{"id": "M294", "file": "Verif/Model/Processes.lean", "definition": "continuousInteract", "old": ".ok (part, list.add photon, r3.2)", "new": ".ok (part.updateTrack part.position (part.momentum.sub (part.direction.smul gammaE)), list.add photon, r3.2)", "edit": "the lepton recoils although its pusher has slowed it down", "claim": "C125 C124"}
{"id": "M295", "file": "Verif/Model/Processes.lean", "definition": "continuousInteract", "old": "if cfg.eMin <. gammaE then\n        let r3", "new": "if lit 0 <. gammaE then\n        let r3", "edit": "threshold ignored", "claim": "C125"}
{"id": "M296", "file": "Verif/Model/Processes.lean", "definition": "continuousInteract", "old": "Particle.newPhotonE gammaE part.position part.direction weight part.time\n          cfg.track r3.1", "new": "Particle.newPhotonE gammaE part.position part.direction part.weight part.time\n          cfg.track r3.1", "edit": "photon gets the weight of the lepton", "claim": "C125"}
{"id": "M297", "file": "Verif/Model/Pushers.lean", "definition": "rk4", "old": "(momK3.smul (lit 2))", "new": "momK3", "edit": "third stage with weight one", "claim": "C121 C103"}
{"id": "M298", "file": "Verif/Model/Pushers.lean", "definition": "rk4", "old": "let f2 := field (time +. dt /. lit 2)", "new": "let f2 := field time", "edit": "second stage at the start time", "claim": "C121"}
{"id": "M299", "file": "Verif/Model/Pushers.lean", "definition": "rk4", "old": "let f4 := field (time +. dt) (pos.add (posK3.muls dt))", "new": "let f4 := field (time +. dt) (pos.add (posK2.muls dt))", "edit": "fourth stage at the position of the third", "claim": "C121"}
{"id": "M300", "file": "Verif/Model/Pushers.lean", "definition": "rk4", "old": "let mom3 := mom.add ((momK2.muls dt).divs (lit 2))", "new": "let mom3 := mom.add ((momK1.muls dt).divs (lit 2))", "edit": "third stage repeats the second", "claim": "C121"}
{"id": "M301", "file": "Verif/Model/Pushers.lean", "definition": "landauReaction", "old": "lit (-2) /. lit 3 *. Units.alpha *. eta *. eta)\n\n/-- `LandauPusher::PushMomentum`", "new": "lit 2 /. lit 3 *. Units.alpha *. eta *. eta)\n\n/-- `LandauPusher::PushMomentum`", "edit": "sign of the radiation reaction", "claim": "C29"}
{"id": "M302", "file": "Verif/Model/Pushers.lean", "definition": "gaunt", "old": "lit (-2) /. lit 3)", "new": "lit 2 /. lit 3)", "edit": "Gaunt factor inverted", "claim": "C29"}
{"id": "M303", "file": "Verif/Model/Pushers.lean", "definition": "lorentzForce", "old": "((p.cross b).divs (mass *. pushGamma mass p))).smul charge", "new": "((p.cross b).divs mass)).smul charge", "edit": "momentum instead of velocity in the magnetic force", "claim": "C104 C112 C121"}
{"id": "M304", "file": "Verif/Model/Pushers.lean", "definition": "lorentzForce", "old": "(e.add ((p.cross b)", "new": "(e.add ((b.cross p)", "edit": "cross product reversed", "claim": "C104 C103"}
{"id": "M305", "file": "Verif/Model/Pushers.lean", "definition": "lorentzForce", "old": ".smul charge", "new": ".smul (charge *. charge)", "edit": "sign of the charge lost", "claim": "C109 C112"}
{"id": "M306", "file": "Verif/Model/Pushers.lean", "definition": "pushParticle", "old": "let positionNew := part.position.add (part.momentum.smul (dt /. part.momentum.mag))", "new": "let positionNew := part.position.add \u27e8part.momentum.x *. (dt /. part.momentum.mag), part.momentum.y, part.momentum.z *. (dt /. part.momentum.mag)\u27e9", "edit": "y of photons not scaled", "claim": "C108"}
{"id": "M307", "file": "Verif/Model/Sim.lean", "definition": "visit", "old": "interactAll cfg.procs k (l.set k (pushParticle cfg.push cfg.field cfg.dt p)) r", "new": "interactAll cfg.procs 0 (l.set k (pushParticle cfg.push cfg.field cfg.dt p)) r", "edit": "processes always act on the first particle", "claim": "C111 C109"}
{"id": "M308", "file": "Verif/Model/Sim.lean", "definition": "advance", "old": "particleLoop cfg l.maxParticles 0 l r", "new": "particleLoop cfg l.nPart 0 l r", "edit": "new particles wait for the next step", "claim": "C125 C105"}
{"id": "M309", "file": "Verif/Model/Sim.lean", "definition": "timeStep", "old": "time := s.time +. cfg.dt", "new": "time := s.time +. cfg.dt +. cfg.dt", "edit": "clock runs twice as fast", "claim": "C96 C124 C122"}
{"id": "M310", "file": "Verif/Model/Sim.lean", "definition": "EvState.init", "old": "\u27e8l, r, lit 0, 0, hists\u27e9", "new": "\u27e8l, r, lit 1, 0, hists\u27e9", "edit": "clock starts at one", "claim": "C122 C124"}
{"id": "M311", "file": "Verif/Model/Fields.lean", "definition": "getField", "old": "let e0 := f.amplitude time position\n  (f.rotationInv.mulVec \u27e8e0 *. cos f.polAngle, e0 *. sin f.polAngle, lit 0\u27e9,\n   f.rotationInv.mulVec \u27e8e0 *. sin f.polAngle, e0 *. cos f.polAngle, lit 0\u27e9)\n\nend PlaneField", "new": "let e0 := f.amplitude time position\n  (f.rotationInv.mulVec \u27e8e0 *. cos f.polAngle, e0 *. sin f.polAngle, lit 0\u27e9,\n   f.rotationInv.mulVec \u27e8-. (e0 *. cos f.polAngle), e0 *. sin f.polAngle, lit 0\u27e9)\n\nend PlaneField", "edit": "magnetic field of a plane wave along the mirrored electric field", "claim": "C120"}
{"id": "M312", "file": "Verif/Model/Fields.lean", "definition": "amplitude", "old": "f.maxE *. cos ((p.z -. time) *. f.waveNum)", "new": "f.maxE *. cos ((p.z -. time -. time) *. f.waveNum)", "edit": "wave moves at twice the speed of light", "claim": "C120 C119"}
{"id": "M313", "file": "Verif/Model/Fields.lean", "definition": "amplitude", "old": "exp (lit (-1) *. (time -. t0 -. p.z)", "new": "exp (lit (-1) *. (time +. t0 -. p.z)", "edit": "pulse starts at the focus side", "claim": "C119 C122 C124"}
{"id": "M314", "file": "Verif/Model/Geant.lean", "definition": "setPlaneField", "old": "(waveLength /. u.refLength) polarisation direction", "new": "(waveLength *. u.refLength) polarisation direction", "edit": "wavelength converted the wrong way", "claim": "C119"}
{"id": "M315", "file": "Verif/Model/Geant.lean", "definition": "setGaussianField", "old": "(tau /. u.refTime)", "new": "(tau /. u.refLength)", "edit": "duration converted as a length", "claim": "C119"}
{"id": "M316", "file": "Verif/Model/Geant.lean", "definition": "setStaticField", "old": "staticField e b", "new": "staticField b e", "edit": "electric and magnetic field swapped", "claim": "C119"}
{"id": "M317", "file": "Verif/Model/Geant.lean", "definition": "tfPostStep", "old": "sqrt (p.mag2 +. lit 1) /.", "new": "p.mag2 /.", "edit": "energy from the squared momentum", "claim": "C117"}
{"id": "M318", "file": "Verif/Model/Geant.lean", "definition": "tfPostStep", "old": "direction := p.norm", "new": "direction := electron.norm", "edit": "direction of the unscaled momentum", "claim": "C117"}
{"id": "M319", "file": "Verif/Model/Multivariate.lean", "definition": "randNormNd", "old": "mean + L.mulVec z", "new": "mean + L.transpose.mulVec z", "edit": "transposed factor", "claim": "C113"}
{"id": "M320", "file": "Verif/Model/Multivariate.lean", "definition": "LMatrix", "old": "Real.sqrt (w i)))", "new": "w i))", "edit": "eigenvalues without square root", "claim": "C113"}
{"id": "M321", "file": "Verif/Model/Multivariate.lean", "definition": "randSinhArcsinhNd", "old": "Real.sinh (Real.arsinh (sample i) + skew i)", "new": "Real.sinh (Real.arsinh (sample i) - skew i)", "edit": "sign of the skew", "claim": "C114"}
{"id": "M322", "file": "Verif/Model/Multivariate.lean", "definition": "lowerPart", "old": "A (max i j) (min i j)", "new": "A (min i j) (max i j)", "edit": "upper triangle read", "claim": "C113"}
{"id": "M323", "file": "Verif/Model/Surrogate.lean", "definition": "Graph.load", "old": "| none => .throw \"Error reading graph definition\"", "new": "| none => .ok \u27e8shape, fun _ => none\u27e9", "edit": "missing model accepted", "claim": "C115"}
{"id": "M324", "file": "Verif/Model/Surrogate.lean", "definition": "loadGraphs", "old": "readInto s.elecParams (openText d (elec ++ \"/meta.dat\".toList))", "new": "readInto s.elecParams (openText d (phot ++ \"/meta.dat\".toList))", "edit": "scales of the electron read from the file of the photons", "claim": "C115"}
{"id": "M325", "file": "Verif/Model/Surrogate.lean", "definition": "TfHeap.load", "old": "{ t with elec := e.1, phot := p.1, photCount := c.1, heap := c.2 }", "new": "{ t with elec := e.1, phot := p.1, photCount := p.1, heap := c.2 }", "edit": "two members share a model", "claim": "C116"}
{"id": "M326", "file": "Verif/Model/Surrogate.lean", "definition": "destroy", "old": "let h \u2190 t.photCount.delete h\n  t.g4Part.delete h", "new": "t.photCount.delete h", "edit": "last photon not deleted by the destructor", "claim": "C116"}
{"id": "M327", "file": "Verif/Model/RunManager.lean", "definition": "emissionOf", "old": "m.timeStep m.sampleFrac (lit 0) false", "new": "m.timeStep (lit 1) (lit 0) false", "edit": "sample fraction not handed on", "claim": "C124"}
{"id": "M328", "file": "Verif/Model/RunManager.lean", "definition": "simOf", "old": "dt := m.timeStep, timeEnd := m.timeEnd", "new": "dt := m.timeEnd, timeEnd := m.timeStep", "edit": "time step and end time swapped", "claim": "C124 C123"}
{"id": "M329", "file": "Verif/Model/RunManager.lean", "definition": "physicsOf", "old": "(landauForce, .continuous (emissionOf t m) true)", "new": "(lorentzForce, .continuous (emissionOf t m) true)", "edit": "classical leptons do not slow down", "claim": "C71 C124"}
{"id": "M330", "file": "Verif/Model/RunManager.lean", "definition": "sourceOf", "old": "a.radius a.duration", "new": "a.duration a.radius", "edit": "radius and duration swapped", "claim": "C124"}
{"id": "M331", "file": "Verif/Model/Main.lean", "definition": "makeSource", "old": "p.radius p.duration", "new": "p.duration p.radius", "edit": "radius and duration swapped", "claim": "C122"}
{"id": "M332", "file": "Verif/Model/Source.lean", "definition": "new", "old": "xPos := sampleNorm (lit 0) deltaPos raw.zx", "new": "xPos := sampleNorm deltaPos deltaPos raw.zx", "edit": "beam off axis", "claim": "C122 C124"}
{"id": "M333", "file": "Verif/Model/Source.lean", "definition": "generateList", "old": "{ s with partCount := s.partCount + 1 }", "new": "s", "edit": "every event fires the first particle", "claim": "C122 C124 C123"}
{"id": "M334", "file": "Verif/Model/Source.lean", "definition": "mkParticle", "old": ".ok (.newLeptonE (lit 1) (lit (-1)) energy pos dir (lit 1) (lit 0) s.track u)", "new": ".ok (.newLeptonE (lit 1) (lit (-1)) energy pos dir (lit 1) (lit 1) s.track u)", "edit": "electrons start at time one", "claim": "C122 C124"}
{"id": "M335", "file": "Verif/Model/Processes.lean", "definition": "bwInteract", "old": "let pEnergy := split *. part.energy", "new": "let pEnergy := (lit 1 -. split) *. part.energy", "edit": "both leptons get the same share", "claim": "C99"}
{"id": "M336", "file": "Verif/Model/Processes.lean", "definition": "stochasticInteract", "old": "let gammaE := lit 2 *. chi *. part.gamma /. eta\n      let gammaP", "new": "let gammaE := chi *. part.gamma /. eta\n      let gammaP", "edit": "factor two missing in the photon energy", "claim": "C118"}
{"id": "M337", "file": "Verif/Model/Particle.lean", "definition": "add", "old": "{ l with items := l.items ++ [p] } else l", "new": "{ l with items := p :: l.items } else l", "edit": "new particles put first", "claim": "C111 C110"}
{"id": "M338", "file": "Verif/Model/Pushers.lean", "definition": "lorentzForce", "old": "(e.add ((p.cross b).divs (mass *. pushGamma mass p))).smul charge", "new": "(e.add ((p.cross b).divs mass)).smul charge", "edit": "Lorentz factor missing in the magnetic force", "claim": "C126"}
{"id": "M339", "file": "Verif/Model/Pushers.lean", "definition": "landauReaction", "old": "p.norm.smul (lit (-2) /. lit 3 *. Units.alpha *. eta *. eta)", "new": "p.norm.smul (lit 2 /. lit 3 *. Units.alpha *. eta *. eta)", "edit": "sign of the radiation reaction", "claim": "C126"}
{"id": "M340", "file": "Verif/Model/Processes.lean", "definition": "calculateEta", "old": "    +. pow (dir.dot f.1) (lit 2) /. (part.gamma *. part.gamma)) *. part.gamma", "new": "    +. pow (dir.dot f.1) (lit 2)) *. (part.gamma *. part.gamma)", "edit": "Lorentz factor squared in the quantum parameter", "claim": "C126"}
{"id": "M341", "file": "Verif/Model/Pushers.lean", "definition": "rk4", "old": "let mom4 := mom.add (momK3.muls dt)", "new": "let mom4 := mom3.add (momK3.muls dt)", "edit": "last stage starts from the third", "claim": "C103 C121"}
{"id": "M342", "file": "Verif/Model/ThreeVector.lean", "definition": "V3.norm", "old": "def norm (a : V3 D) : V3 D := divs a (mag a)", "new": "def norm (a : V3 D) : V3 D := divs a (mag2 a)", "edit": "normalised by the squared length", "claim": "C01"}
{"id": "M343", "file": "Verif/Model/ThreeVector.lean", "definition": "V3.dot", "old": "a.x *. b.x +. a.y *. b.y +. a.z *. b.z", "new": "a.x *. b.x +. a.y *. b.y -. a.z *. b.z", "edit": "sign of the z term of the scalar product", "claim": "C01"}
{"id": "M344", "file": "Verif/Model/ThreeVector.lean", "definition": "V3.sub", "old": "\u27e8a.x -. b.x, a.y -. b.y, a.z -. b.z\u27e9\n\n/-- `operator*(scalar", "new": "\u27e8a.x -. b.x, a.y -. b.y, b.z -. a.z\u27e9\n\n/-- `operator*(scalar", "edit": "z difference reversed", "claim": "C127"}
{"id": "M345", "file": "Verif/Model/ThreeVector.lean", "definition": "M3.mul", "old": "acc3 a.m00 b.m01 a.m01 b.m11 a.m02 b.m21", "new": "acc3 a.m00 b.m10 a.m01 b.m11 a.m02 b.m12", "edit": "one entry uses the transposed factor", "claim": "C02"}
{"id": "M346", "file": "Verif/Model/ThreeVector.lean", "definition": "V3.direction", "old": "\u27e8point.x -. a.x, point.y -. a.y, point.z -. a.z\u27e9", "new": "\u27e8a.x -. point.x, a.y -. point.y, a.z -. point.z\u27e9", "edit": "direction reversed", "claim": "C04"}
{"id": "M347", "file": "Verif/Model/Numerics.lean", "definition": "interpolate1D", "old": ".ok (d0 +. (d1 -. d0) *. ((q -. s0) /. (s1 -. s0)))", "new": ".ok d0", "edit": "values below the table are clamped", "claim": "C06"}
{"id": "M348", "file": "Verif/Model/Numerics.lean", "definition": "simpsonsRule", "old": "(lit axis.length -. lit 1)", "new": "lit axis.length", "edit": "step from the number of points", "claim": "C09"}
{"id": "M349", "file": "Verif/Model/Particle.lean", "definition": "PList.get", "old": "| none => if i < l.maxParticles then .ub \"null particle\" else .ub \"out-of-bounds read\"", "new": "| none => .exit 1", "edit": "invalid index ends the program", "claim": "C13"}
{"id": "M350", "file": "Verif/Model/Particle.lean", "definition": "Particle.updateTrack", "old": "posHistory := p.posHistory ++ [position]", "new": "posHistory := p.posHistory ++ [p.position]", "edit": "old position recorded", "claim": "C14"}
{"id": "M351", "file": "Verif/Model/Particle.lean", "definition": "Particle.updateTrack", "old": "timeHistory := p.timeHistory ++ [p.time]", "new": "timeHistory := p.timeHistory", "edit": "time not recorded", "claim": "C15"}
{"id": "M352", "file": "Verif/Model/Source.lean", "definition": "Source.sphere", "old": "\u27e8sin theta *. cos phi, sin theta *. sin phi, cos theta\u27e9", "new": "\u27e8cos theta, sin theta *. cos phi, sin theta *. sin phi\u27e9", "edit": "polar axis along x", "claim": "C18"}
{"id": "M353", "file": "Verif/Model/Fields.lean", "definition": "PlaneField.new", "old": "waveNum := lit 2 *. Units.pi /. waveLength\n    rotation, rotationInv := rotation.inverse }", "new": "waveNum := lit 2 *. Units.pi /. waveLength\n    rotation, rotationInv := rotation }", "edit": "rotation applied instead of its inverse", "claim": "C21"}
{"id": "M354", "file": "Verif/Model/Fields.lean", "definition": "GaussField.amplitude", "old": "let t0 := (f.startPos.sub f.focusPos).mag", "new": "let t0 := f.startPos.mag", "edit": "delay from the distance to the origin", "claim": "C23"}
{"id": "M355", "file": "Verif/Model/Fields.lean", "definition": "GaussField.amplitude", "old": "let t0 := (f.startPos.sub f.focusPos).mag", "new": "let t0 := f.startPos.mag", "edit": "delay from the distance to the origin", "claim": "C129"}
{"id": "M356", "file": "Verif/Model/Fields.lean", "definition": "GaussField.amplitude", "old": "let rayleigh := f.waveNum *. f.waist *. f.waist /. lit 2", "new": "let rayleigh := f.waveNum *. f.waist *. f.waist", "edit": "Rayleigh range twice too long", "claim": "C129"}
{"id": "M357", "file": "Verif/Model/Fields.lean", "definition": "GaussField.amplitude", "old": "*. exp (lit (-1) *. r2 /. (beamWaist *. beamWaist))", "new": "*. exp (lit (-2) *. r2 /. (beamWaist *. beamWaist))", "edit": "intensity profile used for the field", "claim": "C129"}
{"id": "M358", "file": "Verif/Model/Fields.lean", "definition": "PlaneField.amplitude", "old": "f.maxE *. cos ((p.z -. time) *. f.waveNum)", "new": "f.maxE *. cos (p.z *. f.waveNum -. time)", "edit": "frequency independent of the wavelength", "claim": "C25"}
{"id": "M359", "file": "Verif/Model/Pushers.lean", "definition": "pushParticle", "old": "part.position.add (part.momentum.smul (dt /. part.momentum.mag))", "new": "part.position.sub (part.momentum.smul (dt /. part.momentum.mag))", "edit": "photons fly backwards", "claim": "C26"}
{"id": "M360", "file": "Verif/Model/Pushers.lean", "definition": "modLandauReaction", "old": "*. eta *. eta *. gaunt eta)", "new": "*. eta *. eta /. gaunt eta)", "edit": "Gaunt factor divided", "claim": "C29"}
{"id": "M361", "file": "Verif/Model/Pushers.lean", "definition": "landauForce", "old": "(lorentzForce mass charge p e b).add (landauReaction mass p e b)", "new": "(lorentzForce mass charge p e b).add ((landauReaction mass p e b).smul charge)", "edit": "radiation reaction depends on the sign of the charge", "claim": "C31"}
{"id": "M362", "file": "Verif/Model/Processes.lean", "definition": "stochasticInteract", "old": "let gammaP := part.direction.smul gammaE", "new": "let gammaP := part.momentum.smul gammaE", "edit": "recoil proportional to the momentum", "claim": "C32"}
{"id": "M363", "file": "Verif/Model/Processes.lean", "definition": "storePhoton", "old": "if cfg.eMin <. gammaE then\n    if", "new": "if cfg.eMin <=. gammaE then\n    if", "edit": "photons of the minimum energy stored", "claim": "C34"}
{"id": "M364", "file": "Verif/Model/Processes.lean", "definition": "storePhoton", "old": "part.position part.direction\n        (part.weight /. cfg.sampleFrac) part.time", "new": "part.position part.direction\n        (part.weight /. cfg.sampleFrac) (lit 0)", "edit": "stored photons start at time zero", "claim": "C32"}
{"id": "M365", "file": "Verif/Model/Processes.lean", "definition": "continuousInteract", "old": "Particle.newPhotonE gammaE part.position part.direction weight part.time", "new": "Particle.newPhotonE gammaE part.position part.momentum weight (part.time +. cfg.dt)", "edit": "photon a time step late", "claim": "C35"}
{"id": "M366", "file": "Verif/Model/Processes.lean", "definition": "bwDelta", "old": "dt *. Units.alpha *. chi *. pow (lit 10) logt /. energy", "new": "dt *. Units.alpha *. pow (lit 10) logt /. energy", "edit": "rate without chi", "claim": "C37"}
{"id": "M367", "file": "Verif/Model/Processes.lean", "definition": "calculateEta", "old": "((dir.cross f.2).smul part.beta)", "new": "(dir.cross f.2)", "edit": "velocity missing in eta", "claim": "C102"}
{"id": "M368", "file": "Verif/Model/Processes.lean", "definition": "bwChi", "old": "lit 0.5 *. part.energy", "new": "part.energy", "edit": "factor one half missing in chi", "claim": "C102"}
{"id": "M369", "file": "Verif/Model/Processes.lean", "definition": "calculateChi", "old": "let highValue \u2190 interpolate1D th ch rand", "new": "let highValue \u2190 interpolate1D th cl rand", "edit": "chi axis of the lower row used for the upper row", "claim": "C101"}
{"id": "M370", "file": "Verif/Model/Processes.lean", "definition": "calculateChi", "old": "let highValue \u2190 interpolate1D th ch rand", "new": "let highValue \u2190 interpolate1D th cl rand", "edit": "chi axis of the lower row used for the upper row", "claim": "C100"}
{"id": "M371", "file": "Verif/Model/Processes.lean", "definition": "calculateChi", "old": ".ok (pow (lit 10) ((lit 1 -. frac)", "new": ".ok (pow (lit 10) ((lit 1 +. frac)", "edit": "sign of the interpolation weight", "claim": "C100"}
{"id": "M372", "file": "Verif/Model/Processes.lean", "definition": "stochasticInteract", "old": "let gammaE := lit 2 *. chi *. part.gamma /. eta\n      let gammaP", "new": "let gammaE := lit 4 *. chi *. part.gamma /. eta\n      let gammaP", "edit": "photon energy doubled", "claim": "C100"}
{"id": "M373", "file": "Verif/Model/Processes.lean", "definition": "bwSplit", "old": "let highValue \u2190 interpolate1D th cfg.fractAxis rand", "new": "let highValue \u2190 interpolate1D th cfg.chiAxis rand", "edit": "wrong axis for the upper row", "claim": "C99"}
{"id": "M374", "file": "Verif/Model/Processes.lean", "definition": "bwSplit", "old": "closestPoints cfg.chiAxis (log10 chi)", "new": "closestPoints cfg.chiAxis chi", "edit": "logarithm forgotten in the lookup of the share", "claim": "C99"}
{"id": "M375", "file": "Verif/Model/Processes.lean", "definition": "bwSplit", "old": "closestPoints cfg.chiAxis (log10 chi)", "new": "closestPoints cfg.chiAxis chi", "edit": "logarithm forgotten in the lookup of the share", "claim": "C101"}
{"id": "M376", "file": "Verif/Model/Processes.lean", "definition": "pairLepton", "old": "(part.direction.smul (sqrt (energy *. energy -. lit 1)))", "new": "(part.direction.smul energy)", "edit": "rest mass ignored in a pair", "claim": "C127"}
{"id": "M377", "file": "Verif/Model/Processes.lean", "definition": "stochasticInteract", "old": "let part := part.updateTrack part.position (part.momentum.sub gammaP)", "new": "let part := part", "edit": "no recoil", "claim": "C127"}
{"id": "M378", "file": "Verif/Model/Processes.lean", "definition": "storePhoton", "old": "if cfg.sampleFrac <. r.next.1 then", "new": "if r.next.1 <. cfg.sampleFrac then", "edit": "sampling decision the right way round", "claim": "C127"}
{"id": "M379", "file": "Verif/Model/Processes.lean", "definition": "bwInteract", "old": ".ok (part.kill, (list.add positron).add electron, r3.2)", "new": ".ok (part.kill, list.add positron, r3.2)", "edit": "electron of the pair lost", "claim": "C109"}
{"id": "M380", "file": "Verif/Model/Processes.lean", "definition": "bwInteract", "old": ".ok (part.kill, (list.add positron).add electron, r3.2)", "new": ".ok (part.kill, list.add positron, r3.2)", "edit": "electron of the pair lost", "claim": "C44"}
{"id": "M381", "file": "Verif/Model/Particle.lean", "definition": "Particle.updateOpticalDepth", "old": "{ p with opticalDepth := p.opticalDepth -. dtau }", "new": "{ p with opticalDepth := p.opticalDepth -. dtau *. dtau }", "edit": "square of the increment used", "claim": "C105"}
{"id": "M382", "file": "Verif/Model/Sim.lean", "definition": "timeStep", "old": "time := s.time +. cfg.dt }", "new": "time := s.time +. cfg.dt *. cfg.dt }", "edit": "squared time step", "claim": "C40"}
{"id": "M383", "file": "Verif/Model/Sim.lean", "definition": "particleLoop", "old": "if k < l.nPart then do", "new": "if k + 1 < l.nPart then do", "edit": "last particle not visited", "claim": "C110"}
{"id": "M384", "file": "Verif/Model/Sim.lean", "definition": "particleLoop", "old": "if k < l.nPart then do", "new": "if k + 1 < l.nPart then do", "edit": "last particle not visited", "claim": "C111"}
{"id": "M385", "file": "Verif/Model/Sim.lean", "definition": "particleLoop", "old": "if k < l.nPart then do", "new": "if k + 1 < l.nPart then do", "edit": "last particle not visited", "claim": "C105"}
{"id": "M386", "file": "Verif/Model/Sim.lean", "definition": "fillHist", "old": "| p :: ps => do\n    let h \u2190 if h.particle = p.name", "new": "| p :: ps => do\n    let h \u2190 if h.particle = p.name \u2227 p.isAlive", "edit": "converted photons not counted", "claim": "C52"}
{"id": "M387", "file": "Verif/Model/Histogram.lean", "definition": "Hist.count", "old": "(v +. lit 1) }", "new": "(v +. lit 2) }", "edit": "two counts per particle", "claim": "C47"}
{"id": "M388", "file": "Verif/Model/Histogram.lean", "definition": "Hist.count", "old": "(first <. x) && (x <. last)", "new": "(first <=. x) && (x <. last)", "edit": "lower edge included", "claim": "C97"}
{"id": "M389", "file": "Verif/Model/Histogram.lean", "definition": "Hist.count", "old": "(v +. lit 1) }", "new": "(v +. lit 2) }", "edit": "two counts per particle", "claim": "C97"}
{"id": "M390", "file": "Verif/Model/Histogram.lean", "definition": "Hist.binCentres", "old": "(lit nBins -. lit 1)", "new": "lit nBins", "edit": "bin width from the number of bins", "claim": "C97"}
{"id": "M391", "file": "Verif/Model/Numerics.lean", "definition": "arrayIndex", "old": "if (q -. sl) <. (sh -. q) then .ok low else .ok (low + 1)", "new": ".ok low", "edit": "lower of two bins always taken", "claim": "C97"}
{"id": "M392", "file": "Verif/Model/ProgramMpi.lean", "definition": "localSources", "old": "(s.1, { w with out := Main.initSourceIf s.2 w.out s.1.nPart })", "new": "(s.1, w)", "edit": "arrays of a source not prepared", "claim": "C128"}
{"id": "M393", "file": "Verif/Model/ProgramMpi.lean", "definition": "localSources", "old": "pure ((s.2, w.out) :: rest, w')", "new": "pure ((s.2, w'.out) :: rest, w')", "edit": "state after the last source sent for every source", "claim": "C128"}
{"id": "M394", "file": "Verif/Model/ProgramMpi.lean", "definition": "localSources", "old": "let (rest, w') \u2190 localSources cfg fuel tracking ss w\n", "new": "let (rest, w') \u2190 localSources cfg fuel tracking ss.tail w\n", "edit": "every second source skipped", "claim": "C128"}
{"id": "M395", "file": "Verif/Model/ProgramMpi.lean", "definition": "localRun", "old": "pure (sent, w.hists)", "new": "pure (sent, Main.makeHists garbage 0 input.histograms)", "edit": "empty histograms sent", "claim": "C128"}
{"id": "M396", "file": "Verif/Model/ProgramMpi.lean", "definition": "localRun", "old": "\u27e8rng, Main.makeHists garbage 0 input.histograms, out\u27e9", "new": "\u27e8rng, [], out\u27e9", "edit": "no histograms made", "claim": "C128"}
{"id": "M397", "file": "Verif/Model/ProgramMpi.lean", "definition": "rankProgram", "old": "runRank S nProc id x.1 x.2 l", "new": "runRank S nProc 0 x.1 x.2 l", "edit": "every rank acts as the master", "claim": "C128"}
{"id": "M398", "file": "Verif/Model/Output.lean", "definition": "Buf.write", "old": "if i < b.length then .ok (b.set i (some v)) else .ub \"out-of-bounds write\"", "new": ".ok (b.set i (some v))", "edit": "out-of-bounds writes ignored", "claim": "C58"}
{"id": "M399", "file": "Verif/Model/Output.lean", "definition": "H5.objInfo", "old": "if f.exists_ p then 0 else -1", "new": "if f.exists_ p then -1 else 0", "edit": "objects reported the wrong way round", "claim": "C54"}
{"id": "M400", "file": "Verif/Model/Output.lean", "definition": "H5.createDataSet", "old": ".ok { f with sets := f.sets ++ [(p, \u27e8dims, data\u27e9)] }", "new": ".ok { f with sets := [(p, \u27e8dims, data\u27e9)] }", "edit": "earlier data sets lost", "claim": "C92"}
{"id": "M401", "file": "Verif/Model/Output.lean", "definition": "H5.addArray2D", "old": "f.createDataSet p [x, y] b (x * y)", "new": "f.createDataSet p [y, x] b (x * y)", "edit": "dimensions swapped", "claim": "C51"}
{"id": "M402", "file": "Verif/Model/Output.lean", "definition": "H5.addArray3D", "old": "f.createDataSet p [x, y, z] b (x * y * z)", "new": "f.createDataSet p [z, y, x] b (x * y * z)", "edit": "dimensions reversed", "claim": "C92"}
{"id": "M403", "file": "Verif/Model/Output.lean", "definition": "OutMgr.initSource", "old": "electronCount := List.replicate nEvents 0\n    positronCount := List.replicate nEvents 0", "new": "electronCount := m.electronCount\n    positronCount := List.replicate nEvents 0", "edit": "electron counters kept from the last source", "claim": "C51"}
{"id": "M404", "file": "Verif/Model/Output.lean", "definition": "OutMgr.groupOnce", "old": "if done = false then f.addGroup p else .ok f", "new": "f.addGroup p", "edit": "group asked for every time", "claim": "C53"}
{"id": "M405", "file": "Verif/Model/Output.lean", "definition": "OutMgr.outputSource", "old": ".ok { m with file := f, sourceBool := true }", "new": ".ok { m with file := f }", "edit": "flag of the source group not set", "claim": "C53"}
{"id": "M406", "file": "Verif/Model/Output.lean", "definition": "OutMgr.trackSets", "old": "(vecCells t.mom u.momentum) t.mom.length", "new": "(vecCells t.pos u.momentum) t.mom.length", "edit": "positions written as momenta", "claim": "C92"}
{"id": "M407", "file": "Verif/Model/Output.lean", "definition": "OutMgr.trackSets", "old": "(vecCells t.mom u.momentum) t.mom.length", "new": "(vecCells t.pos u.momentum) t.mom.length", "edit": "positions written as momenta", "claim": "C80"}
{"id": "M408", "file": "Verif/Model/Output.lean", "definition": "OutMgr.vecCells", "old": "[some (v.x *. s), some (v.y *. s), some (v.z *. s)]", "new": "[some (v.x *. s), some (v.z *. s), some (v.y *. s)]", "edit": "y and z swapped in written vectors", "claim": "C92"}
{"id": "M409", "file": "Verif/Model/Output.lean", "definition": "OutMgr.refs", "old": "| some u => u", "new": "| some _ => \u27e8lit 1, lit 1, lit 1\u27e9", "edit": "units ignored", "claim": "C92"}
{"id": "M410", "file": "Verif/Model/Output.lean", "definition": "OutMgr.writeTrack", "old": "\"Event\" ++ toString i]", "new": "\"Event\" ++ toString t.id]", "edit": "tracks named by event", "claim": "C92"}
{"id": "M411", "file": "Verif/Model/Output.lean", "definition": "OutMgr.outputHist", "old": "let path : Path := [\"Histograms\", h.name]", "new": "let path : Path := [\"Histograms\", h.particle]", "edit": "histogram named by its species", "claim": "C80"}
{"id": "M412", "file": "Verif/Model/Output.lean", "definition": "OutMgr.gridI", "old": "gridI g ny nz n (i + 1) b", "new": "gridI g ny nz n i b", "edit": "first plane written repeatedly", "claim": "C58"}
{"id": "M413", "file": "Verif/Model/Output.lean", "definition": "OutMgr.gridBuffer", "old": "gridI g ny nz nx 0 (Buf.new (nx * ny * nz))", "new": "gridI g nx nz ny 0 (Buf.new (nx * ny * nz))", "edit": "nx and ny swapped", "claim": "C58"}
{"id": "M414", "file": "Verif/Model/Output.lean", "definition": "OutMgr.outComponent", "old": "xs.length ys.length zs.length p", "new": "ys.length xs.length zs.length p", "edit": "grid sizes swapped", "claim": "C92"}
{"id": "M415", "file": "Verif/Model/Output.lean", "definition": "OutMgr.singleParticle", "old": "if p.tracking = false then .exit 1\n  else do\n    let f \u2190 writeHistories", "new": "if p.isAlive = false then .exit 1\n  else do\n    let f \u2190 writeHistories", "edit": "converted photons rejected instead of untracked particles", "claim": "C92"}
{"id": "M416", "file": "Verif/Model/Output.lean", "definition": "OutMgr.listProperties", "old": "l.nPart 5 (group", "new": "l.nPart 4 (group", "edit": "last column not written", "claim": "C92"}
{"id": "M417", "file": "Verif/Model/Output.lean", "definition": "OutMgr.listTracks", "old": "let f \u2190 listTracksLoop m.refs name 0 l.items f", "new": "let f \u2190 listTracksLoop m.refs name 0 l.items.tail f", "edit": "first particle not written", "claim": "C92"}
{"id": "M418", "file": "Verif/Model/Particle.lean", "definition": "Particle.new", "old": "isAlive := true", "new": "isAlive := false", "edit": "particles created dead", "claim": "C36"}
{"id": "M419", "file": "Verif/Model/Particle.lean", "definition": "Particle.newPhotonE", "old": "new .photon (lit 0) (lit 0) position (direction.norm.smul energy)", "new": "new .photon (lit 0) (lit 0) position (direction.smul energy)", "edit": "direction not normalised", "claim": "C12"}
{"id": "M420", "file": "Verif/Model/Particle.lean", "definition": "Particle.newLeptonE", "old": "position (direction.norm.smul energy) weight time\n    tracking u", "new": "position (direction.smul energy) weight time\n    tracking u", "edit": "direction not normalised", "claim": "C12"}
{"id": "M421", "file": "Verif/Model/Particle.lean", "definition": "Particle.newLeptonE", "old": "position (direction.norm.smul energy) weight time\n    tracking u", "new": "position (direction.norm.smul (sqrt (energy *. energy -. lit 1))) weight time\n    tracking u", "edit": "momentum corrected to belong to the energy", "claim": "C19"}
{"id": "M422", "file": "Verif/Model/Particle.lean", "definition": "Particle.updateTime", "old": "{ p with time := p.time +. dt }", "new": "{ p with time := dt }", "edit": "time replaced instead of advanced", "claim": "C42"}
{"id": "M423", "file": "Verif/Model/Particle.lean", "definition": "Particle.kill", "old": "{ p with isAlive := false }", "new": "p", "edit": "kill has no effect", "claim": "C36"}
{"id": "M424", "file": "Verif/Model/Particle.lean", "definition": "Particle.name", "old": "| .positron => \"Positron\"", "new": "| .positron => \"positron\"", "edit": "name of positrons in lower case", "claim": "C51"}
{"id": "M425", "file": "Verif/Model/Particle.lean", "definition": "Particle.typeName", "old": "| .photon => \"Photon\"\n  | _ => \"Lepton\"", "new": "| .photon => \"photon\"\n  | _ => \"Lepton\"", "edit": "type of photons in lower case", "claim": "C36"}
{"id": "M426", "file": "Verif/Model/Particle.lean", "definition": "PList.defaultMax", "old": "def defaultMax : Nat := 1000000", "new": "def defaultMax : Nat := 1", "edit": "lists of one particle", "claim": "C95"}
{"id": "M427", "file": "Verif/Model/Particle.lean", "definition": "PList.set", "old": "l.items.set i p", "new": "l.items.set 0 p", "edit": "the first particle is always changed", "claim": "C44"}
{"id": "M428", "file": "Verif/Model/Units.lean", "definition": "SI_eSchw", "old": "lit 1.3232855e18", "new": "lit 1.3232855e16", "edit": "Schwinger field in V/cm", "claim": "C74"}
{"id": "M429", "file": "Verif/Model/Units.lean", "definition": "pi", "old": "lit 3.14159265359", "new": "lit 3.1415", "edit": "fewer digits of pi", "claim": "C74"}
{"id": "M430", "file": "Verif/Model/Units.lean", "definition": "alpha", "old": "lit 0.0072973525664", "new": "lit 137.035999", "edit": "inverse of the fine-structure constant", "claim": "C29"}
{"id": "M431", "file": "Verif/Model/Units.lean", "definition": "unitsSI", "old": "g4Length := lit 1e-3 /. refLength", "new": "g4Length := lit 1e-2 /. refLength", "edit": "Geant4 length in centimetres", "claim": "C119"}
{"id": "M432", "file": "Verif/Model/Units.lean", "definition": "unitsSI", "old": "refBField := SI_eSchw /. SI_c", "new": "refBField := SI_eSchw", "edit": "magnetic field in V/m", "claim": "C74"}
{"id": "M433", "file": "Verif/Model/Units.lean", "definition": "unitsSI", "old": "refMomentum := SI_me *. SI_c", "new": "refMomentum := SI_me", "edit": "momentum unit without c", "claim": "C74"}
{"id": "M434", "file": "Verif/Model/Surrogate.lean", "definition": "inputs", "old": "let y \u2190 rd xs n", "new": "let y \u2190 rd xs 0", "edit": "first input repeated", "claim": "C115"}
{"id": "M435", "file": "Verif/Model/Surrogate.lean", "definition": "Graph.run", "old": "| none => .throw \"Error running graph!\"", "new": "| none => .exit 1", "edit": "failing model ends the program", "claim": "C115"}
{"id": "M436", "file": "Verif/Model/Surrogate.lean", "definition": "Surrogate.input", "old": "(t.properTime -. s.timeLag) /. m5]", "new": "(t.properTime +. s.timeLag) /. m5]", "edit": "time lag added", "claim": "C117"}
{"id": "M437", "file": "Verif/Model/Surrogate.lean", "definition": "Surrogate.input", "old": "p.z /. m2, t.position.x /. m3", "new": "p.z /. m3, t.position.x /. m2", "edit": "scales of z momentum and x swapped", "claim": "C117"}
{"id": "M438", "file": "Verif/Model/Surrogate.lean", "definition": "Surrogate.input", "old": "p.x /. (m0 +. lit 1)", "new": "p.x /. m0", "edit": "offset of the scale dropped", "claim": "C117"}
{"id": "M439", "file": "Verif/Model/Surrogate.lean", "definition": "readInto", "old": "(s.double x).1 :: readInto xs (s.double x).2", "new": "(s.double x).1 :: readInto xs s", "edit": "same number read again", "claim": "C115"}
{"id": "M440", "file": "Verif/Model/Surrogate.lean", "definition": "Surrogate.postStep", "old": "if n = 0 then .ok \u27e8lit 0, lit 0, lit 0\u27e9 else scales s.photParams", "new": "scales s.elecParams", "edit": "photons scaled like electrons", "claim": "C117"}
{"id": "M441", "file": "Verif/Model/Surrogate.lean", "definition": "TfHeap.act", "old": ".ok { t with heap := h, handed := t.handed.erase a }", "new": ".ok t", "edit": "deletion by Geant4 forgotten", "claim": "C116"}
{"id": "M442", "file": "Verif/Model/Surrogate.lean", "definition": "TfHeap.handOne", "old": "{ t with g4Part := (newInto t.heap).1, heap", "new": "{ t with heap", "edit": "pointer to the last photon not kept", "claim": "C116"}
{"id": "M443", "file": "Verif/Model/MCTools.lean", "definition": "Rng.next", "old": "(r.draw r.pos, { r with pos := r.pos + 1 })", "new": "(r.draw r.pos, r)", "edit": "the same number drawn again", "claim": "C107"}
{"id": "M444", "file": "Verif/Model/Numerics.lean", "definition": "usub", "old": "(a + 2 ^ 32 - b) % 2 ^ 32", "new": "a - b", "edit": "subtraction stops at zero", "claim": "C50"}
{"id": "M445", "file": "Verif/Model/Numerics.lean", "definition": "sumStep2", "old": "sumStep2 c f bound (i + 2)", "new": "sumStep2 c f bound (i + 1)", "edit": "every point in both sums", "claim": "C09"}
{"id": "M446", "file": "Verif/Model/Processes.lean", "definition": "continuousLoghChi", "old": "(lit 0.7193, c *. (eta /. chiMin) *. (eta /. chiMin))", "new": "(lit 0.7193, c *. (eta /. chiMin))", "edit": "classical chi scaled linearly", "claim": "C125"}
{"id": "M447", "file": "Verif/Model/Processes.lean", "definition": "continuousLoghChi", "old": "if (eta <. lit 1e-12) || classical then", "new": "if eta <. lit 1e-12 then", "edit": "classical physics not treated specially", "claim": "C39"}
{"id": "M448", "file": "Verif/Model/Pushers.lean", "definition": "pushEta", "old": "((dir.cross b).smul beta)", "new": "((b.cross dir).smul beta)", "edit": "sign of the magnetic term of eta", "claim": "C102"}
{"id": "M449", "file": "Verif/Model/Fields.lean", "definition": "staticField", "old": "fun _ _ => (e, b)", "new": "fun _ _ => (b, e)", "edit": "electric and magnetic field swapped", "claim": "C103"}
{"id": "M450", "file": "Verif/Model/Fields.lean", "definition": "FocusField.beamField", "old": "(-. c 2) /. lit 2\n    +. rho2", "new": "(c 2) /. lit 2\n    +. rho2", "edit": "sign of one term of the longitudinal field", "claim": "C24"}
{"id": "M451", "file": "Verif/Model/Fields.lean", "definition": "FocusField.new", "old": "eps := waist /. rayleigh", "new": "eps := rayleigh /. waist", "edit": "diffraction angle inverted", "claim": "C24"}
{"id": "M452", "file": "Verif/Model/FileParser.lean", "definition": "readPhysics", "old": "minEnergy := real r sect \"min_energy\" (lit 0) /. u.refEnergy", "new": "minEnergy := real r sect \"min_energy\" (lit 0)", "edit": "threshold not converted", "claim": "C79"}
{"id": "M453", "file": "Verif/Model/FileParser.lean", "definition": "readPhysics", "old": "sampleFraction := real r sect \"sample_fraction\" (lit 1)", "new": "sampleFraction := real r sect \"sample_fraction\" (lit 0)", "edit": "default sample fraction zero", "claim": "C67"}
{"id": "M454", "file": "Verif/Model/FileParser.lean", "definition": "readPhysics", "old": "r.getBoolean sect \"pair_production\".toList false", "new": "r.getBoolean sect \"pair_production\".toList true", "edit": "pair production on by default", "claim": "C67"}
{"id": "M455", "file": "Verif/Model/FileParser.lean", "definition": "readField", "old": "let wavelength := real r sect \"wavelength\" (lit 1) /. u.refLength", "new": "let wavelength := real r sect \"wavelength\" (lit 1) /. u.refTime", "edit": "wavelength converted as a time", "claim": "C129"}
{"id": "M456", "file": "Verif/Model/FileParser.lean", "definition": "readField", "old": "let waist := real r sect \"waist\" (lit 1) /. u.refLength", "new": "let waist := real r sect \"wavelength\" (lit 1) /. u.refLength", "edit": "wavelength read as waist", "claim": "C129"}
{"id": "M457", "file": "Verif/Model/FileParser.lean", "definition": "readField", "old": ".ok (.gaussian maxE wavelength duration waist polerisation (start.divs u.refLength)", "new": ".ok (.gaussian maxE wavelength duration waist polerisation start", "edit": "start not converted", "claim": "C129"}
{"id": "M458", "file": "Verif/Model/FileParser.lean", "definition": "readField", "old": ".ok (.plane (real r sect \"e_max\" (lit 0) /. u.refEField)", "new": ".ok (.plane (real r sect \"e_max\" (lit 0) /. u.refBField)", "edit": "peak field converted as a magnetic field", "claim": "C79"}
{"id": "M459", "file": "Verif/Model/FileParser.lean", "definition": "readParticle", "old": "duration := real r sect \"duration\" (lit 0) /. u.refTime", "new": "duration := real r sect \"duration\" (lit 0) /. u.refLength", "edit": "bunch duration converted as a length", "claim": "C79"}
{"id": "M460", "file": "Verif/Model/FileParser.lean", "definition": "readParticle", "old": "radius := real r sect \"radius\" (lit 0) /. u.refLength", "new": "radius := real r sect \"radius\" (lit 0)", "edit": "radius not converted", "claim": "C79"}
{"id": "M461", "file": "Verif/Model/FileParser.lean", "definition": "readHistogram", "old": "maxBin := real r sect \"max_bin\" (lit 1)", "new": "maxBin := real r sect \"max_bin\" (lit 1) /. u.refEnergy", "edit": "upper limit converted to the internal unit", "claim": "C79"}
{"id": "M462", "file": "Verif/Model/FileParser.lean", "definition": "numbered", "old": "pre.toList ++ Nat.toDigits 10 i", "new": "pre.toList ++ Nat.toDigits 16 i", "edit": "sections numbered in hexadecimal", "claim": "C67"}
{"id": "M463", "file": "Verif/Model/RunManager.lean", "definition": "setGenerator", "old": "{ m with genSet := true, genArgs := a.convert }", "new": "{ m with genArgs := a.convert }", "edit": "source not marked as set", "claim": "C72"}
{"id": "M464", "file": "Verif/Model/RunManager.lean", "definition": "setGenerator", "old": "{ m with genSet := true, genArgs := a.convert }", "new": "{ m with genSet := true, genArgs := a }", "edit": "source parameters not converted", "claim": "C74"}
{"id": "M465", "file": "Verif/Model/RunManager.lean", "definition": "setSampleFraction", "old": "if (lit 0 <=. x) && (x <=. lit 1) then", "new": "if (lit 0 <=. x) || (x <=. lit 1) then", "edit": "any sample fraction accepted", "claim": "C75"}
{"id": "M466", "file": "Verif/Model/RunManager.lean", "definition": "new", "old": "sampleFrac := lit 1, useBW := false", "new": "sampleFrac := lit 2, useBW := false", "edit": "sample fraction two at the start", "claim": "C75"}
{"id": "M467", "file": "Verif/Model/RunManager.lean", "definition": "usePairProduction", "old": "{ m with useBW := b }", "new": "{ m with useBW := true }", "edit": "pair production cannot be switched off", "claim": "C71"}
{"id": "M468", "file": "Verif/Model/RunManager.lean", "definition": "fieldOf", "old": "(GaussField.new a.maxField a.wavelength a.duration a.waist a.polarisation a.start a.focus).getField", "new": "(GaussField.new a.maxField a.wavelength a.duration a.waist a.polarisation a.focus a.start).getField", "edit": "start and focus swapped", "claim": "C129"}
{"id": "M469", "file": "Verif/Model/RunManager.lean", "definition": "FieldArgs.convert", "old": "wavelength := a.wavelength /. u.refLength", "new": "wavelength := a.wavelength /. u.refTime", "edit": "wavelength converted as a time", "claim": "C129"}
{"id": "M470", "file": "Verif/Model/RunManager.lean", "definition": "allocGenerator", "old": "{ m with heap := h, generator := pg }", "new": "{ m with heap := h }", "edit": "new generator not stored", "claim": "C70"}
{"id": "M471", "file": "Verif/Model/RunManager.lean", "definition": "Results.empty", "old": "\u27e8List.replicate threads [], List.replicate threads [], List.replicate threads [],", "new": "\u27e8List.replicate threads [], List.replicate threads [], List.replicate (threads - 1) [],", "edit": "one vector of positrons too few", "claim": "C123"}
{"id": "M472", "file": "Verif/Model/RunManager.lean", "definition": "storeInput", "old": "storeInput tid ps { rs with input := v }", "new": ".ok { rs with input := v }", "edit": "only the first primary stored", "claim": "C73"}
{"id": "M473", "file": "Verif/Model/RunManager.lean", "definition": "storeFinals", "old": "storeFinals tid ps rs", "new": ".ok rs", "edit": "only the first final particle stored", "claim": "C73"}
{"id": "M474", "file": "Verif/Model/RunManager.lean", "definition": "getElectrons", "old": "\u27e8Mpi.i32 (rs.electrons.flatten.length / 7 : Nat), 7, rs.electrons.flatten\u27e9", "new": "\u27e8Mpi.i32 (rs.electrons.flatten.length / 6 : Nat), 7, rs.electrons.flatten\u27e9", "edit": "wrong number of rows", "claim": "C73"}
{"id": "M475", "file": "Verif/Model/Geant.lean", "definition": "lastIndex", "old": "Mpi.i32 (RunMgr.u32 ((n : Int) - 1))", "new": "Mpi.i32 (RunMgr.u32 ((n : Int)))", "edit": "index one past the end", "claim": "C76"}
{"id": "M476", "file": "Verif/Model/Geant.lean", "definition": "shotOf", "old": "direction := p.direction\n\n/-- The members", "new": "direction := p.position\n\n/-- The members", "edit": "position used as direction", "claim": "C82"}
{"id": "M477", "file": "Verif/Model/Geant.lean", "definition": "meanFreePath", "old": "else if switch = false then (true, true)", "new": "else if switch = false then (true, false)", "edit": "switch never set", "claim": "C84"}
{"id": "M478", "file": "Verif/Model/Geant.lean", "definition": "Emitter.setField", "old": "{ e with field := f.1, process := p.1, pusher := q.1, heap := q.2 }", "new": "{ e with field := f.1, process := p.1, heap := q.2 }", "edit": "pusher not stored", "claim": "C77"}
{"id": "M479", "file": "Verif/Model/Geant.lean", "definition": "Emitter.handOne", "old": "handed := e.heap.next :: e.handed }", "new": "handed := e.handed }", "edit": "photons not given to Geant4", "claim": "C77"}
{"id": "M480", "file": "Verif/Model/Geant.lean", "definition": "Emitter.kernelDelete", "old": ".ok { e with heap := h, handed := e.handed.erase a }", "new": ".ok { e with heap := h }", "edit": "deleted photon still owned by Geant4", "claim": "C77"}
{"id": "M481", "file": "Verif/Model/Geant.lean", "definition": "Mixture.sample", "old": ".ok (sampler a b c)", "new": ".ok (sampler a c b)", "edit": "width and skew swapped", "claim": "C117"}
{"id": "M482", "file": "Verif/Model/Geant.lean", "definition": "scale", "old": "\u27e8a.x *. b.x, a.y *. b.y, a.z *. b.z\u27e9", "new": "\u27e8a.x *. b.x, a.y *. b.y, a.z\u27e9", "edit": "z component not scaled", "claim": "C117"}
{"id": "M483", "file": "Verif/Model/Geant.lean", "definition": "tfPhotons", "old": "let p := scale electron photParams", "new": "let p := photParams", "edit": "photons independent of the electron", "claim": "C85"}
{"id": "M484", "file": "Verif/Model/Geant.lean", "definition": "setGaussianField", "old": "polarisation start focus).getField", "new": "polarisation focus start).getField", "edit": "start and focus swapped", "claim": "C119"}
{"id": "M485", "file": "Verif/Model/Geant.lean", "definition": "Emitter.act", "old": "| .meanFreePath true => .ok { e with switch := !e.switch }", "new": "| .meanFreePath true => .ok { e with switch := true }", "edit": "switch stays on", "claim": "C84"}
{"id": "M486", "file": "Verif/Model/TableFiles.lean", "definition": "use", "old": "| none => .ub \"use of an indeterminate value\"", "new": "| none => .exit 1", "edit": "indeterminate values reported", "claim": "C88"}
{"id": "M487", "file": "Verif/Model/TableFiles.lean", "definition": "tablePath", "old": "| none => .ub \"std::string of a null pointer\"", "new": "| none => .exit 1", "edit": "missing table path reported", "claim": "C88"}
{"id": "M488", "file": "Verif/Model/TableFiles.lean", "definition": "readPairTable", "old": "let (n, s) := (IStream.new text).uint none\n  let n \u2190 use n\n  readPairs n s none none", "new": "let (n, s) := (IStream.new text).uint none\n  let n \u2190 use n\n  readPairs (n - 1) s none none", "edit": "last pair not read", "claim": "C98"}
{"id": "M489", "file": "Verif/Model/TableFiles.lean", "definition": "loadEmission", "old": "let (data, _) := readRows chiLength etaLength s", "new": "let (data, _) := readRows etaLength chiLength s", "edit": "rows and columns swapped", "claim": "C86"}
{"id": "M490", "file": "Verif/Model/TableFiles.lean", "definition": "loadEmission", "old": "let chiAxis := List.zipWith (chiRow etaLength chiLength) etaAxis chiMin", "new": "let chiAxis := List.zipWith (chiRow etaLength chiLength) chiMin etaAxis", "edit": "eta and smallest chi swapped", "claim": "C87"}
{"id": "M491", "file": "Verif/Model/TableFiles.lean", "definition": "chiRow", "old": "let delta := (eta -. log10 (lit 2) -. logMinChi)", "new": "let delta := (eta -. logMinChi)", "edit": "rows end at eta instead of half eta", "claim": "C87"}
{"id": "M492", "file": "Verif/Model/TableFiles.lean", "definition": "chiRow", "old": "let delta := (eta -. log10 (lit 2) -. logMinChi)", "new": "let delta := (eta -. logMinChi)", "edit": "rows end at eta instead of half eta", "claim": "C100"}
{"id": "M493", "file": "Verif/Model/TableFiles.lean", "definition": "readSplit", "old": "let (e, epsS) := epsS.double none", "new": "let (e, epsS) := fractS.double none", "edit": "shares read from the wrong file", "claim": "C98"}
{"id": "M494", "file": "Verif/Model/TableFiles.lean", "definition": "loadPairs", "old": "let chiFile \u2190 openTable files path \"/log_chi.table\"", "new": "let chiFile \u2190 openTable files path \"/epsilon.table\"", "edit": "wrong file for chi", "claim": "C98"}
{"id": "M495", "file": "Verif/Model/TableFiles.lean", "definition": "emissionDelete", "old": "[.delete \u27e8\"h_dataTable\", none\u27e9, .delete \u27e8\"h_etaAxis\", none\u27e9] ++", "new": "[.delete \u27e8\"h_dataTable\", none\u27e9, .delete \u27e8\"h_dataTable\", none\u27e9] ++", "edit": "one array freed twice, another never", "claim": "C89"}
{"id": "M496", "file": "Verif/Model/TableFiles.lean", "definition": "emissionNew", "old": "[.new \u27e8\"phEn_chiAxis\", some i\u27e9, .new \u27e8\"phEn_dataTable\", some i\u27e9]", "new": "[.new \u27e8\"phEn_chiAxis\", some i\u27e9]", "edit": "rows of the table not made", "claim": "C89"}
{"id": "M497", "file": "Verif/Model/ThreeVector.lean", "definition": "get", "old": "| 1 => v.y\n  | 2 => v.z", "new": "| 1 => v.z\n  | 2 => v.y", "edit": "components 1 and 2 swapped", "claim": "C01"}
{"id": "M498", "file": "Verif/Model/ThreeVector.lean", "definition": "add", "old": "def add (a b : V3 D) : V3 D := \u27e8a.x +. b.x, a.y +. b.y, a.z +. b.z\u27e9", "new": "def add (a b : V3 D) : V3 D := \u27e8a.x +. b.x, a.y +. b.y, a.z -. b.z\u27e9", "edit": "sign of the third component", "claim": "C01"}
{"id": "M499", "file": "Verif/Model/ThreeVector.lean", "definition": "smul", "old": "\u27e8s *. v.x, s *. v.y, s *. v.z\u27e9", "new": "\u27e8s *. v.x, s *. v.y, v.z\u27e9", "edit": "third component not scaled", "claim": "C01"}
{"id": "M500", "file": "Verif/Model/ThreeVector.lean", "definition": "muls", "old": "def muls (v : V3 D) (s : D) : V3 D := \u27e8v.x *. s, v.y *. s, v.z *. s\u27e9", "new": "def muls (v : V3 D) (s : D) : V3 D := \u27e8v.x *. s, v.x *. s, v.z *. s\u27e9", "edit": "second component from the first", "claim": "C01"}
{"id": "M501", "file": "Verif/Model/ThreeVector.lean", "definition": "divs", "old": "\u27e8v.x /. s, v.y /. s, v.z /. s\u27e9", "new": "\u27e8v.x /. s, v.y /. s, v.z *. s\u27e9", "edit": "third component multiplied", "claim": "C01"}
{"id": "M502", "file": "Verif/Model/ThreeVector.lean", "definition": "mag", "old": "def mag (a : V3 D) : D := sqrt (dot a a)", "new": "def mag (a : V3 D) : D := dot a a", "edit": "root dropped", "claim": "C01"}
{"id": "M503", "file": "Verif/Model/ThreeVector.lean", "definition": "mag2", "old": "def mag2 (a : V3 D) : D := dot a a", "new": "def mag2 (a : V3 D) : D := sqrt (dot a a)", "edit": "root added", "claim": "C01 C12"}
{"id": "M504", "file": "Verif/Model/ThreeVector.lean", "definition": "ideneity", "old": "m00 := lit 1, m11 := lit 1, m22 := lit 1 }", "new": "m00 := lit 1, m11 := lit 1 }", "edit": "last diagonal entry forgotten", "claim": "C03"}
{"id": "M505", "file": "Verif/Model/ThreeVector.lean", "definition": "M3.add", "old": "a.m20 +. b.m20, a.m21 +. b.m21", "new": "a.m20 +. b.m20, a.m12 +. b.m21", "edit": "transposed index", "claim": "C03"}
{"id": "M506", "file": "Verif/Model/ThreeVector.lean", "definition": "acc3", "old": "lit 0 +. a1 *. b1 +. a2 *. b2 +. a3 *. b3", "new": "lit 0 +. a1 *. b1 +. a2 *. b2", "edit": "third term dropped", "claim": "C02 C03"}
{"id": "M507", "file": "Verif/Model/ThreeVector.lean", "definition": "M3.muls", "old": "a.m10 *. s, a.m11 *. s, a.m12 *. s", "new": "a.m10 *. s, a.m11, a.m12 *. s", "edit": "an entry not scaled", "claim": "C02 C03"}
{"id": "M508", "file": "Verif/Model/ThreeVector.lean", "definition": "mulVec", "old": "acc3 a.m10 v.x a.m11 v.y a.m12 v.z", "new": "acc3 a.m01 v.x a.m11 v.y a.m21 v.z", "edit": "a column instead of a row", "claim": "C03"}
{"id": "M509", "file": "Verif/Model/ThreeVector.lean", "definition": "V3.ez", "old": "def V3.ez : V3 D := \u27e8lit 0, lit 0, lit 1\u27e9", "new": "def V3.ez : V3 D := \u27e8lit 1, lit 0, lit 0\u27e9", "edit": "beam axis along x", "claim": "C18"}
{"id": "M510", "file": "Verif/Model/Units.lean", "definition": "SI_c", "old": "lit 2.99792458e8", "new": "lit 2.99792458e10", "edit": "speed of light in cm", "claim": "C129 C79"}
{"id": "M511", "file": "Verif/Model/Units.lean", "definition": "SI_me", "old": "lit 9.10938356e-31", "new": "lit 9.10938356e-28", "edit": "electron mass in grams", "claim": "C129 C119 C124 C122"}
{"id": "M512", "file": "Verif/Model/Units.lean", "definition": "SI_qe", "old": "lit 1.60217662e-19", "new": "lit 1.60217662e-16", "edit": "charge off by a thousand", "claim": "C129 C119 C122"}
{"id": "M513", "file": "Verif/Model/Units.lean", "definition": "SI_hBar", "old": "lit 1.05457180e-34", "new": "lit 6.62607004e-34", "edit": "h instead of hbar", "claim": "C74 C79 C129"}
{"id": "M514", "file": "Verif/Model/Particle.lean", "definition": "initOpticalDepth", "old": "{ p with opticalDepth := initDepth u }", "new": "p", "edit": "optical depth not drawn again", "claim": "C16 C105 C118"}
{"id": "M515", "file": "Verif/Model/Particle.lean", "definition": "leptonKind", "old": "then .electron else .positron", "new": "then .positron else .electron", "edit": "species swapped", "claim": "C12 C36 C43 C17"}
{"id": "M516", "file": "Verif/Model/Particle.lean", "definition": "direction", "old": "def direction (p : Particle D) : V3 D := p.momentum.norm", "new": "def direction (p : Particle D) : V3 D := p.momentum", "edit": "direction not normalised", "claim": "C12 C102"}
{"id": "M517", "file": "Verif/Model/Processes.lean", "definition": "Proc.interact", "old": "| .continuous cfg classical => continuousInteract cfg classical part list r", "new": "| .continuous cfg classical => continuousInteract cfg (!classical) part list r", "edit": "classical and semiclassical swapped", "claim": "C68 C125"}
{"id": "M518", "file": "Verif/Model/Processes.lean", "definition": "Proc.interact", "old": "| .breitWheeler cfg => bwInteract cfg part list r", "new": "| .breitWheeler _ => .ok (part, list, r)", "edit": "photons never convert", "claim": "C36 C105 C101 C68"}
{"id": "M519", "file": "Verif/Model/Program.lean", "definition": "initSourceIf", "old": "if output = true then m.initSource n else m", "new": "m.initSource n", "edit": "output tables made for all sources", "claim": "C93 C94"}
{"id": "M520", "file": "Verif/Model/Program.lean", "definition": "makeHists", "old": "makeHist h (garbage i) :: makeHists garbage (i + 1) hs", "new": "makeHist h (garbage i) :: makeHists garbage i hs", "edit": "histograms share a counter", "claim": "C91"}
{"id": "M521", "file": "Verif/Model/Program.lean", "definition": "run", "old": "let out \u2190 Timed.lift (outputHists w.out w.hists)\n  pure out.file", "new": "pure w.out.file", "edit": "histograms never written", "claim": "C93 C80"}
{"id": "M522", "file": "Verif/Model/Program.lean", "definition": "runSources", "old": "let w \u2190 runSource cfg fuel tracking s w\n    runSources cfg fuel tracking ss w", "new": "runSource cfg fuel tracking s w", "edit": "only the first source is run", "claim": "C93 C95 C94"}
{"id": "M523", "file": "Verif/Model/Main.lean", "definition": "start", "old": "let cfg \u2190 setup t input\n  .ok (input, cfg)", "new": "let cfg \u2190 setup t input\n  let input \u2190 FileParser.parse (Reader.ofFile [])\n  .ok (input, cfg)", "edit": "input reset after set-up", "claim": "C91 C93 C66"}
{"id": "M524", "file": "Verif/Model/Main.lean", "definition": "bwCfg", "old": "tAxis := t.tAxis, tData := t.tData, chiAxis := t.bwChiAxis", "new": "tAxis := t.bwChiAxis, tData := t.tData, chiAxis := t.tAxis", "edit": "axes of the two pair tables swapped", "claim": "C91 C68 C98 C99"}
{"id": "M525", "file": "Verif/Model/Main.lean", "definition": "bwCfg", "old": "{ field, dt, track := false\n    tAxis", "new": "{ field, dt := dt +. dt, track := false\n    tAxis", "edit": "pair process with twice the step", "claim": "C91 C68"}
{"id": "M526", "file": "Verif/Model/Histogram.lean", "definition": "empty", "old": "\u27e8\"\", \"\", \"\", 0, 0, time, [], []\u27e9", "new": "\u27e8\"\", \"\", \"\", 0, 1, time, [], []\u27e9", "edit": "an empty histogram starts with an event", "claim": "C41 C48 C45"}
{"id": "M527", "file": "Verif/Model/Sim.lean", "definition": "timeLoop", "old": "| .ok s' => timeLoop cfg fuel s'", "new": "| .ok s' => some (.ok s')", "edit": "the loop stops after one step", "claim": "C40 C96"}
{"id": "M528", "file": "Verif/Model/Sim.lean", "definition": "timeLoop", "old": "    if s.time <. cfg.timeEnd then\n      match", "new": "    if s.time <=. cfg.timeEnd then\n      match", "edit": "one step more", "claim": "C40 C96"}
{"id": "M529", "file": "Verif/Model/FileParser.lean", "definition": "str", "old": "String.ofList (r.getString sect name.toList dflt.toList)", "new": "String.ofList (r.getString name.toList sect dflt.toList)", "edit": "section and name swapped", "claim": "C79 C91 C66"}
{"id": "M530", "file": "Verif/Model/FileParser.lean", "definition": "real", "old": "r.getReal sect name.toList dflt", "new": "r.getReal sect name.toList (Dbl.lit 0)", "edit": "default ignored", "claim": "C79 C66"}
{"id": "M531", "file": "Verif/Model/Ini.lean", "definition": "lskip", "old": "def lskip (s : List Char) : List Char := s.dropWhile isSpace", "new": "def lskip (s : List Char) : List Char := s.drop 1", "edit": "skips one character", "claim": "C59 C60 C64"}
{"id": "M532", "file": "Verif/Model/Ini.lean", "definition": "findCharsOrComment", "old": "findFrom stop false s", "new": "findFrom stop true s", "edit": "a semicolon at the start is a comment", "claim": "C59 C60"}
{"id": "M533", "file": "Verif/Model/Ini.lean", "definition": "bom", "old": "['\\xef', '\\xbb', '\\xbf']", "new": "['\\xff', '\\xfe']", "edit": "mark of another encoding", "claim": "C59 C60 C62"}
{"id": "M534", "file": "Verif/Model/Ini.lean", "definition": "cstr", "old": "s.takeWhile (\u00b7 \u2260 '\\x00')", "new": "s", "edit": "text after a NUL kept", "claim": "C59 C60 C62"}
{"id": "M535", "file": "Verif/Model/Ini.lean", "definition": "PState.init", "old": "\u27e8[], [], 0, 0, []\u27e9", "new": "\u27e8[], [], 1, 0, []\u27e9", "edit": "lines counted from one", "claim": "C62"}
{"id": "M536", "file": "Verif/Model/Ini.lean", "definition": "parseFile", "old": "parseBuffers (fgetsAll 199 [] text)", "new": "parseBuffers (fgetsAll 199 [] (text.drop 1))", "edit": "first character lost", "claim": "C59 C63"}
{"id": "M537", "file": "Verif/Model/Ini.lean", "definition": "lower", "old": "s.map Char.toLower", "new": "s", "edit": "case not folded", "claim": "C61"}
{"id": "M538", "file": "Verif/Model/Ini.lean", "definition": "ofFile", "old": "{ st.calls.foldl handle empty with error := st.error }", "new": "st.calls.foldl handle empty", "edit": "parse errors forgotten", "claim": "C62 C66"}
{"id": "M539", "file": "Verif/Model/Ini.lean", "definition": "new", "old": "| none => .exit 1\n  | some text", "new": "| none => .ok empty\n  | some text", "edit": "a missing file is an empty one", "claim": "C66 C69"}
{"id": "M540", "file": "Verif/Model/Ini.lean", "definition": "isDigit", "old": "(digitVal c).any (\u00b7 < b)", "new": "(digitVal c).any (\u00b7 \u2264 b)", "edit": "a digit too many", "claim": "C90 C79 C64 C122"}
{"id": "M541", "file": "Verif/Model/Ini.lean", "definition": "sign", "old": "| '-' :: cs => (true, cs)", "new": "| '-' :: cs => (false, cs)", "edit": "minus sign ignored", "claim": "C64 C79 C90 C122"}
{"id": "M542", "file": "Verif/Model/Ini.lean", "definition": "strtod", "old": "some (if neg then -decimal ip fp ex else decimal ip fp ex)", "new": "some (decimal ip fp ex)", "edit": "sign of a real dropped", "claim": "C79 C122"}
{"id": "M543", "file": "Verif/Model/Ini.lean", "definition": "strtod", "old": "| some (e, _) => e\n      | none => 0", "new": "| some (_, _) => 0\n      | none => 0", "edit": "exponent of a real dropped", "claim": "C79 C122"}
{"id": "M544", "file": "Verif/Model/Ini.lean", "definition": "extractAll", "old": "| some (q, rest) => q :: extractAll fuel rest", "new": "| some (q, _) => [q]", "edit": "only the first number read", "claim": "C64"}
{"id": "M545", "file": "Verif/Model/Ini.lean", "definition": "getReal", "old": "| some q => Dbl.lit q\n  | none => dflt", "new": "| some q => Dbl.lit q\n  | none => Dbl.lit 0", "edit": "default of a real dropped", "claim": "C79 C66"}
{"id": "M546", "file": "Verif/Model/Ini.lean", "definition": "hasValue", "old": "(r.values (makeKey sect name)).isSome", "new": "(r.values sect).isSome", "edit": "asks for the section", "claim": "C66 C67"}
{"id": "M547", "file": "Verif/Model/Output.lean", "definition": "Buf.writeRow", "old": "writeRow b (i + 1) vs", "new": "writeRow b i vs", "edit": "all numbers of a row in one cell", "claim": "C51"}
{"id": "M548", "file": "Verif/Model/Output.lean", "definition": "Buf.readRow", "old": "let vs \u2190 readRow b (i + 1) n", "new": "let vs \u2190 readRow b i n", "edit": "one number repeated", "claim": "C51 C55"}
{"id": "M549", "file": "Verif/Model/Output.lean", "definition": "exists_", "old": "f.hasGroup p || f.hasSet p", "new": "f.hasSet p", "edit": "groups do not exist", "claim": "C54 C53 C80"}
{"id": "M550", "file": "Verif/Model/Output.lean", "definition": "createGroup", "old": "if f.exists_ p = false \u2227 f.hasGroup p.dropLast then .ok { f with groups", "new": "if f.hasGroup p.dropLast then .ok { f with groups", "edit": "a group can be made twice", "claim": "C54"}
{"id": "M551", "file": "Verif/Model/Output.lean", "definition": "u32", "old": "def u32 (n : Nat) : Nat := n % 2 ^ 32", "new": "def u32 (n : Nat) : Nat := n", "edit": "no wrap of 32-bit counters", "claim": "C51 C58"}
{"id": "M552", "file": "Verif/Model/Output.lean", "definition": "sourcePath", "old": "[\"Particles\", \"ParticleSource\", name]", "new": "[\"Particles\", name]", "edit": "wrong group", "claim": "C51 C53"}
{"id": "M553", "file": "Verif/Model/Output.lean", "definition": "gridK", "old": "gridK g ny nz i j n (k + 1) b", "new": "gridK g ny nz i j n k b", "edit": "one column of the grid", "claim": "C58"}
{"id": "M554", "file": "Verif/Model/Output.lean", "definition": "outGrid", "old": "f.addArray3D b nx ny nz p", "new": "f.addArray3D b nz ny nx p", "edit": "shape reversed", "claim": "C58 C92"}
{"id": "M555", "file": "Verif/Model/Output.lean", "definition": "OutMgr.call", "old": "| .storeFinal l j => m.storeFinal l j", "new": "| .storeFinal l _ => m.storeFinal l 0", "edit": "final particles of all events under the first", "claim": "C51"}
{"id": "M556", "file": "Verif/Model/Output.lean", "definition": "calls", "old": "let m \u2190 m.call c\n    calls m cs", "new": "m.call c", "edit": "only the first call is made", "claim": "C51"}
{"id": "M557", "file": "Verif/Model/OutputMpi.lean", "definition": "i32", "old": "Int.bmod n (2 ^ 32)", "new": "n", "edit": "no wrap of int", "claim": "C55 C56 C128"}
{"id": "M558", "file": "Verif/Model/OutputMpi.lean", "definition": "newInt", "old": "if 0 \u2264 n then", "new": "if 0 < n then", "edit": "arrays of length zero fail", "claim": "C55 C56"}
{"id": "M559", "file": "Verif/Model/OutputMpi.lean", "definition": "sendDoubles", "old": "let xs \u2190 lift (b.readRow 0 count.toNat)", "new": "let xs \u2190 lift (b.readRow 1 count.toNat)", "edit": "sending starts one late", "claim": "C55 C56"}
{"id": "M560", "file": "Verif/Model/OutputMpi.lean", "definition": "recvInt", "old": ".recv src tag fun m => .ret (asInt m)", "new": ".recv src (tag + 1) fun m => .ret (asInt m)", "edit": "waits for another tag", "claim": "C55"}
{"id": "M561", "file": "Verif/Model/OutputMpi.lean", "definition": "copyRowsL", "old": "copyRowsL src n (j + 1) dst (idx + 8)", "new": "copyRowsL src n (j + 1) dst (idx + 7)", "edit": "rows overlap", "claim": "C55"}
{"id": "M562", "file": "Verif/Model/OutputMpi.lean", "definition": "totalRows", "old": "counts.foldl (\u00b7 + \u00b7) 0", "new": "counts.foldl (\u00b7 + \u00b7) 1", "edit": "one row too many", "claim": "C55"}
{"id": "M563", "file": "Verif/Model/OutputMpi.lean", "definition": "ownBins", "old": "Buf.readRow (h.values.map some) 0 h.nBins", "new": "Buf.readRow (h.centres.map some) 0 h.nBins", "edit": "centres sent instead of counts", "claim": "C56"}
{"id": "M564", "file": "Verif/Model/OutputMpi.lean", "definition": "runSources", "old": "let l \u2190 outputEventsMPI S nProc id out m l\n    runSources S nProc id rest l", "new": "outputEventsMPI S nProc id out m l", "edit": "only the first source is gathered", "claim": "C55 C128"}
{"id": "M565", "file": "Verif/Model/OutputMpi.lean", "definition": "runHists", "old": "let l \u2190 outputHistMPI S nProc id h l\n    runHists S nProc id hs l", "new": "outputHistMPI S nProc id h l", "edit": "only the first histogram is reduced", "claim": "C56 C128"}
{"id": "M566", "file": "Verif/Model/RunManager.lean", "definition": "Heap.alloc", "old": "(some h.next, \u27e8h.next + 1, h.next :: h.live\u27e9)", "new": "(some h.next, \u27e8h.next, h.next :: h.live\u27e9)", "edit": "the same address twice", "claim": "C70 C81"}
{"id": "M567", "file": "Verif/Model/RunManager.lean", "definition": "getInput", "old": "rs.input.flatten.length / 6 : Nat), 6, rs.input.flatten\u27e9", "new": "rs.input.flatten.length / 5 : Nat), 5, rs.input.flatten\u27e9", "edit": "five numbers per row", "claim": "C73"}
{"id": "M568", "file": "Verif/Model/Surrogate.lean", "definition": "setTimeLag", "old": "{ s with timeLag := t }", "new": "s", "edit": "time lag not stored", "claim": "C115 C117 C119 C114"}
{"id": "M569", "file": "Verif/Model/Surrogate.lean", "definition": "openText", "old": "| none => \u27e8[], false\u27e9", "new": "| none => .new []", "edit": "a missing file is an empty one", "claim": "C115"}
{"id": "M570", "file": "Verif/Model/Surrogate.lean", "definition": "scales", "old": ".ok \u27e8x, y, z\u27e9", "new": ".ok \u27e8x, z, y\u27e9", "edit": "scales swapped", "claim": "C114 C117 C115"}
{"id": "M571", "file": "Verif/Model/Surrogate.lean", "definition": "Draws.photons", "old": "(List.range n).map r.photon", "new": "(List.range n).map fun _ => r.photon 0", "edit": "all photons from one draw", "claim": "C114 C85"}
{"id": "M572", "file": "Verif/Model/Surrogate.lean", "definition": "TfHeap.hand", "old": "TfHeap.hand n t.handOne", "new": "TfHeap.hand n t", "edit": "photons not handed over", "claim": "C116"}
{"id": "M573", "file": "Verif/Model/Surrogate.lean", "definition": "TfHeap.acts", "old": "let t \u2190 t.act a\n    TfHeap.acts as t", "new": "let _ \u2190 t.act a\n    TfHeap.acts as t", "edit": "calls leave no trace", "claim": "C116"}
{"id": "M574", "file": "Verif/Model/Surrogate.lean", "definition": "newGraph", "old": "newInto h.alloc.2", "new": "newInto h", "edit": "graph not allocated", "claim": "C116"}
{"id": "M575", "file": "Verif/Model/TableFiles.lean", "definition": "IStream.new", "old": "\u27e8text, true\u27e9", "new": "\u27e8text, false\u27e9", "edit": "streams begin failed", "claim": "C86 C98"}
{"id": "M576", "file": "Verif/Model/TableFiles.lean", "definition": "useAll", "old": ".ok (a :: as)", "new": ".ok (as ++ [a])", "edit": "table reversed", "claim": "C86"}
{"id": "M577", "file": "Verif/Model/TableFiles.lean", "definition": "lastA", "old": "let (a, s) := s.double a\n    let (b, s) := s.double b\n    lastA n s a b", "new": "let (b, s) := s.double b\n    let (a, s) := s.double a\n    lastA n s a b", "edit": "columns swapped", "claim": "C86 C88 C87"}
{"id": "M578", "file": "Verif/Model/TableFiles.lean", "definition": "Mem.run", "old": "else if a \u2208 live then .ok (live.erase a, lost)", "new": "else if a \u2208 live then .ok (live, lost)", "edit": "delete does not free", "claim": "C89"}
{"id": "M579", "file": "Verif/Model/TableFiles.lean", "definition": "pairsNew", "old": ".new \u27e8\"eFract_fractAxis\", none\u27e9, ", "new": "", "edit": "axis not allocated", "claim": "C89"}
{"id": "M580", "file": "Verif/Model/Geant.lean", "definition": "Member.delete", "old": "| .is p => h.free p", "new": "| .is _ => .ok h", "edit": "delete does nothing", "claim": "C77"}
{"id": "M581", "file": "Verif/Model/Geant.lean", "definition": "newInto", "old": "(.is h.alloc.1, h.alloc.2)", "new": "(.indeterminate, h.alloc.2)", "edit": "pointer not stored", "claim": "C77 C116"}
{"id": "M582", "file": "Verif/Model/Geant.lean", "definition": "Emitter.hand", "old": "Emitter.hand n e.handOne", "new": "Emitter.hand n e", "edit": "photons not handed over", "claim": "C77"}
{"id": "M583", "file": "Verif/Model/Geant.lean", "definition": "Emitter.acts", "old": "let e \u2190 e.act a\n    Emitter.acts as e", "new": "let _ \u2190 e.act a\n    Emitter.acts as e", "edit": "calls leave no trace", "claim": "C77 C84"}
{"id": "M584", "file": "Verif/Model/Numerics.lean", "definition": "usub64", "old": "(a + 2 ^ 64 - b) % 2 ^ 64", "new": "a - b", "edit": "no wrap below zero", "claim": "C05 C06 C07 C08 C39"}
{"id": "M585", "file": "Verif/Model/Pushers.lean", "definition": "pushGamma", "old": "sqrt (lit 1 +. p.mag2 /. (mass *. mass))", "new": "sqrt (p.mag2 /. (mass *. mass))", "edit": "rest energy dropped", "claim": "C131"}
{"id": "M586", "file": "Verif/Model/Pushers.lean", "definition": "pushPosition", "old": "p.divs (mass *. pushGamma mass p)", "new": "(p.divs (mass *. pushGamma mass p)).smul (lit 2)", "edit": "velocity doubled", "claim": "C131"}
{"id": "M587", "file": "Verif/Model/Pushers.lean", "definition": "rk4", "old": "(pos.add ((((posK1.add (posK2.smul (lit 2))).add (posK3.smul (lit 2))).add posK4).smul\n      (dt /. lit 6))", "new": "(pos.add ((((posK1.add (posK2.smul (lit 2))).add (posK3.smul (lit 2))).add posK4).smul\n      (dt /. lit 5))", "edit": "weights do not add to one", "claim": "C131"}
{"id": "M588", "file": "Verif/Model/Source.lean", "definition": "new", "old": "xPos := sampleNorm (lit 0) deltaPos raw.zx", "new": "xPos := sampleNorm (lit 0) deltaTau raw.zx", "edit": "length used for the width", "claim": "C130"}
{"id": "M589", "file": "Verif/Model/Source.lean", "definition": "new", "old": "yPos := sampleNorm (lit 0) deltaPos raw.zy", "new": "yPos := sampleNorm (lit 0) deltaPos raw.zx", "edit": "x and y from the same draws", "claim": "C130"}
{"id": "M590", "file": "Verif/Model/Source.lean", "definition": "new", "old": "zPos := sampleNorm (lit 0) deltaTau raw.zz", "new": "zPos := sampleNorm deltaTau deltaTau raw.zz", "edit": "bunch displaced", "claim": "C130"}
{"id": "M591", "file": "Verif/Model/Source.lean", "definition": "new", "old": "thetaDir := sampleNorm (lit 0) deltaDir raw.zTheta", "new": "thetaDir := sampleNorm (lit 0) deltaDir raw.zx", "edit": "angles tied to positions", "claim": "C130"}
{"id": "M592", "file": "Verif/Model/Source.lean", "definition": "new", "old": "sampleUniform (lit 0) (lit 2 *. Units.pi) raw.uPhi", "new": "sampleUniform (lit 0) Units.pi raw.uPhi", "edit": "half the azimuths", "claim": "C130 C18"}
{"id": "M593", "file": "Verif/Model/CheckFile.lean", "definition": "checkGeneral", "old": ".entry \"Time step   = \" (.num g.timeStep)", "new": ".entry \"Time step   = \" (.num g.timeEnd)", "edit": "end time logged as the step", "claim": "C146"}
{"id": "M594", "file": "Verif/Model/CheckFile.lean", "definition": "checkParticle", "old": ".entry \"Energy2    = \" (.num p.energy2)", "new": ".entry \"Energy2    = \" (.num p.energy1)", "edit": "first energy logged twice", "claim": "C146"}
{"id": "M595", "file": "Verif/Model/CheckFile.lean", "definition": "checkPulse", "old": ".entry \"Start       = \" (.vec start), .entry \"Focus       = \" (.vec focus)", "new": ".entry \"Start       = \" (.vec start)", "edit": "focus not logged", "claim": "C146"}
{"id": "M596", "file": "Verif/Model/CheckFile.lean", "definition": "checkHistogram", "old": ".entry \"Max Bin  = \" (.num h.maxBin)", "new": ".entry \"Max Bin  = \" (.num h.minBin)", "edit": "lower edge logged as the upper", "claim": "C146"}
{"id": "M597", "file": "Verif/Model/CheckFile.lean", "definition": "checkNumbered", "old": "log i a ++ checkNumbered log (i + 1) as", "new": "log i a", "edit": "only the first section logged", "claim": "C146"}
{"id": "M598", "file": "Verif/Model/CheckFile.lean", "definition": "checkFile", "old": "    | _ => some []", "new": "    | _ => old", "edit": "file kept when the input is rejected", "claim": "C146"}
{"id": "M599", "file": "Verif/Model/CheckFile.lean", "definition": "checkLines", "old": "checkNumbered checkParticle 1 i.particles", "new": "checkNumbered checkParticle 0 i.particles", "edit": "sources numbered from zero", "claim": "C146"}
{"id": "M600", "file": "Verif/Model/CheckFile.lean", "definition": "checkPhysics", "old": ".entry \"Sample fraction       = \" (.num p.sampleFraction),", "new": "", "edit": "fraction not logged", "claim": "C146"}
{"id": "M601", "file": "Verif/Model/CheckFile.lean", "definition": "checkField", "old": ".entry \"Direction   = \" (.vec direction)", "new": ".entry \"Direction   = \" (.num wavelength)", "edit": "direction not logged", "claim": "C146"}
{"id": "M602", "file": "Verif/Model/Processes.lean", "definition": "emissionDelta", "old": "dt *. sqrt (lit 3) *. Units.alpha", "new": "dt *. Units.alpha", "edit": "factor sqrt 3 left out", "claim": "C133 C147 C148"}
{"id": "M603", "file": "Verif/Model/Processes.lean", "definition": "emissionDelta", "old": "(gamma *. lit 2 *. Units.pi)", "new": "(lit 2 *. Units.pi)", "edit": "no time dilation of the rate", "claim": "C133 C140 C147 C148"}
{"id": "M604", "file": "Verif/Model/Processes.lean", "definition": "bwDelta", "old": "dt *. Units.alpha *. chi *. pow (lit 10) logt /. energy", "new": "dt *. Units.alpha *. chi *. chi *. pow (lit 10) logt /. energy", "edit": "pair rate with the square of chi", "claim": "C133 C140"}
{"id": "M605", "file": "Verif/Model/Processes.lean", "definition": "bwChi", "old": "lit 0.5 *. part.energy", "new": "part.energy", "edit": "chi of the photon twice too large", "claim": "C133 C140"}
{"id": "M606", "file": "Verif/Model/Processes.lean", "definition": "bwChi", "old": "(ePerp.add (dir.cross f.2)).mag", "new": "(ePerp.sub (dir.cross f.2)).mag", "edit": "sign of the magnetic part", "claim": "C133 C140"}
{"id": "M607", "file": "Verif/Model/Processes.lean", "definition": "calculateEta", "old": "+. pow (dir.dot f.1) (lit 2) /. (part.gamma *. part.gamma)) *. part.gamma", "new": "+. pow (dir.dot f.1) (lit 2)) *. part.gamma", "edit": "parallel field not reduced", "claim": "C133 C140 C147 C148"}
{"id": "M608", "file": "Verif/Model/Processes.lean", "definition": "calculateEta", "old": "((dir.cross f.2).smul part.beta)", "new": "(dir.cross f.2)", "edit": "speed left out of eta", "claim": "C133 C140 C147 C148"}
{"id": "M609", "file": "Verif/Model/Processes.lean", "definition": "stochasticInteract", "old": "      let gammaE := lit 2 *. chi *. part.gamma /. eta\n      let gammaP", "new": "      let gammaE := chi *. part.gamma /. eta\n      let gammaP", "edit": "photon energy halved", "claim": "C148"}
{"id": "M610", "file": "Verif/Model/Processes.lean", "definition": "stochasticInteract", "old": "calculateChi cfg eta r.next.1", "new": "calculateChi cfg part.gamma r.next.1", "edit": "spectrum at gamma instead of eta", "claim": "C148"}
{"id": "M611", "file": "Verif/Model/Processes.lean", "definition": "stochasticInteract", "old": "if part.opticalDepth <. lit 0 then\n      let chi", "new": "if lit 0 <. part.opticalDepth then\n      let chi", "edit": "emits while depth is left", "claim": "C148"}
{"id": "M612", "file": "Verif/Model/Processes.lean", "definition": "stochasticInteract", "old": "(part.momentum.sub gammaP)", "new": "(part.momentum.add gammaP)", "edit": "recoil forwards", "claim": "C148"}
{"id": "M613", "file": "Verif/Model/Processes.lean", "definition": "continuousInteract", "old": "part.weight *. deltaOD /. cfg.sampleFrac", "new": "part.weight *. deltaOD", "edit": "weight not corrected for the fraction", "claim": "C145 C147"}
{"id": "M614", "file": "Verif/Model/Processes.lean", "definition": "continuousInteract", "old": "part.weight *. deltaOD /. cfg.sampleFrac", "new": "part.weight /. cfg.sampleFrac", "edit": "weight without the expected number", "claim": "C145 C147"}
{"id": "M615", "file": "Verif/Model/Processes.lean", "definition": "continuousInteract", "old": "let gammaE := lit 2 *. lc.2 *. part.gamma /. eta", "new": "let gammaE := lc.2 *. part.gamma /. eta", "edit": "recorded photons with half the energy", "claim": "C145 C147"}
{"id": "M616", "file": "Verif/Model/Processes.lean", "definition": "continuousInteract", "old": "if cfg.sampleFrac <. r1.1 then", "new": "if r1.1 <. cfg.sampleFrac then", "edit": "samples the complement", "claim": "C145 C147"}
{"id": "M617", "file": "Verif/Model/Processes.lean", "definition": "continuousLoghChi", "old": "c *. (eta /. chiMin) *. (eta /. chiMin)", "new": "c *. (eta /. chiMin)", "edit": "classical spectrum scaled once", "claim": "C145 C147"}
{"id": "M618", "file": "Verif/Model/Processes.lean", "definition": "continuousLoghChi", "old": ".ok (lit 0.7193, c", "new": ".ok (lit 0, c", "edit": "classical rate constant left out", "claim": "C145 C147"}
{"id": "M619", "file": "Verif/Model/Pushers.lean", "definition": "landauReaction", "old": "Units.alpha *. eta *. eta)\n", "new": "Units.alpha *. eta)\n", "edit": "reaction linear in eta", "claim": "C139 C145 C140"}
{"id": "M620", "file": "Verif/Model/Pushers.lean", "definition": "landauReaction", "old": "(lit (-2) /. lit 3 *. Units.alpha *. eta *. eta)\n", "new": "(lit 2 /. lit 3 *. Units.alpha *. eta *. eta)\n", "edit": "reaction accelerates", "claim": "C139 C145"}
{"id": "M621", "file": "Verif/Model/Pushers.lean", "definition": "modLandauReaction", "old": "eta *. eta *. gaunt eta", "new": "eta *. eta", "edit": "Gaunt factor left out", "claim": "C145"}
{"id": "M622", "file": "Verif/Model/Pushers.lean", "definition": "pushEta", "old": "*. gamma\n\n", "new": "\n\n", "edit": "factor gamma left out of eta", "claim": "C139 C145"}
{"id": "M623", "file": "Verif/Model/Pushers.lean", "definition": "lorentzForce", "old": "(p.cross b)", "new": "(b.cross p)", "edit": "magnetic force reversed", "claim": "C138 C139 C140"}
{"id": "M624", "file": "Verif/Model/Pushers.lean", "definition": "lorentzForce", "old": "((p.cross b).divs (mass *. pushGamma mass p))", "new": "((p.cross b).divs mass)", "edit": "no Lorentz factor in the force", "claim": "C138 C139 C140"}
{"id": "M625", "file": "Verif/Model/Pushers.lean", "definition": "pushPosition", "old": "p.divs (mass *. pushGamma mass p)", "new": "p.divs mass", "edit": "velocity without Lorentz factor", "claim": "C138 C140 C143"}
{"id": "M626", "file": "Verif/Model/Pushers.lean", "definition": "pushGamma", "old": "sqrt (lit 1 +. p.mag2 /. (mass *. mass))", "new": "sqrt (lit 1 +. p.mag2)", "edit": "mass left out of gamma", "claim": "C143 C138"}
{"id": "M627", "file": "Verif/Model/Pushers.lean", "definition": "rk4", "old": "(pos.add (posK3.muls dt))", "new": "(pos.add (posK2.muls dt))", "edit": "last stage from the second slope", "claim": "C121 C138"}
{"id": "M628", "file": "Verif/Model/Pushers.lean", "definition": "rk4", "old": "let f4 := field (time +. dt)", "new": "let f4 := field time", "edit": "last stage at the old time", "claim": "C121 C138 C144"}
{"id": "M629", "file": "Verif/Model/Pushers.lean", "definition": "pushParticle", "old": "(dt /. part.momentum.mag)", "new": "dt", "edit": "photon speed equals momentum", "claim": "C143 C141"}
{"id": "M630", "file": "Verif/Model/Pushers.lean", "definition": "pushParticle", "old": "    (part.updateTrack positionNew part.momentum).updateTime dt", "new": "    part.updateTrack positionNew part.momentum", "edit": "clock of photons stands still", "claim": "C143 C142"}
{"id": "M631", "file": "Verif/Model/Sim.lean", "definition": "histStep", "old": "let h' \u2190 fillHist h s.list.items", "new": "let h' \u2190 fillHist h (s.list.items.drop 1)", "edit": "first particle not counted", "claim": "C142"}
{"id": "M632", "file": "Verif/Model/Processes.lean", "definition": "bwInteract", "old": "let pEnergy := split *. part.energy\n      let eEnergy := (lit 1 -. split) *. part.energy", "new": "let eEnergy := split *. part.energy\n      let pEnergy := (lit 1 -. split) *. part.energy", "edit": "the electron gets the share meant for the positron", "claim": "C149"}
{"id": "M633", "file": "Verif/Model/Processes.lean", "definition": "bwInteract", "old": "let r2 := r1.2.next\n      let positron", "new": "let r2 := r.next\n      let positron", "edit": "the share and the depth of the positron use the same random number", "claim": "C149"}
{"id": "M634", "file": "Verif/Model/Processes.lean", "definition": "bwInteract", "old": "let split \u2190 bwSplit cfg chi r1.1", "new": "let split \u2190 bwSplit cfg logt r1.1", "edit": "the share is looked up at the rate instead of the quantum parameter", "claim": "C149"}
{"id": "M635", "file": "Verif/Model/Processes.lean", "definition": "bwInteract", "old": "let deltaOD := bwDelta cfg.dt chi logt part.energy\n    let part := part.updateOpticalDepth deltaOD", "new": "let deltaOD := bwDelta cfg.dt chi logt part.energy\n    let part := part.updateOpticalDepth (deltaOD +. deltaOD)", "edit": "depth reduced twice in a step", "claim": "C149"}
{"id": "M636", "file": "Verif/Model/ThreeVector.lean", "definition": "norm", "old": "def norm (a : V3 D) : V3 D := divs a (mag a)", "new": "def norm (a : V3 D) : V3 D := if mag a ==. lit 0 then a else divs a (mag a)", "edit": "the direction of the zero vector is the zero vector", "claim": "C151 C01"}
{"id": "M637", "file": "Verif/Model/Processes.lean", "definition": "calculateEta", "old": "(part : Particle D) : D :=\n  let dir := part.direction\n  let f := field part.time part.position\n  let ePara := dir.smul (f.1.dot dir)\n  let ePerp := f.1.sub ePara\n  sqrt ((ePerp.add ((dir.cross f.2).smul part.beta)).mag2", "new": "(part : Particle D) : D :=\n  let dir := if part.momentum.mag2 ==. lit 0 then V3.ez else part.direction\n  let f := field part.time part.position\n  let ePara := dir.smul (f.1.dot dir)\n  let ePerp := f.1.sub ePara\n  sqrt ((ePerp.add ((dir.cross f.2).smul part.beta)).mag2", "edit": "a lepton at rest points along z", "claim": "C151"}
{"id": "M638", "file": "Verif/Model/Processes.lean", "definition": "stochasticInteract", "old": "if part.opticalDepth <. lit 0 then\n      let chi \u2190 calculateChi cfg eta r.next.1", "new": "if !(lit 0 <=. part.opticalDepth) then\n      let chi \u2190 calculateChi cfg eta r.next.1", "edit": "the test of the depth the other way round", "claim": "C151"}
{"id": "M639", "file": "Verif/Model/Pushers.lean", "definition": "landauReaction", "old": "def landauReaction (mass : D) (p e b : V3 D) : V3 D :=\n  let eta := pushEta mass p e b\n  p.norm", "new": "def landauReaction (mass : D) (p e b : V3 D) : V3 D :=\n  let eta := pushEta mass p e b\n  if p.mag2 ==. lit 0 then V3.zero else p.norm", "edit": "no reaction on a lepton at rest", "claim": "C151"}
{"id": "M640", "file": "Verif/Model/Ini.lean", "definition": "getReal", "old": "| some q => Dbl.lit q\n  | none => dflt", "new": "| some q => Dbl.lit q\n  | none => Dbl.lit 0", "edit": "a word in the place of a number is zero", "claim": "C150 C79"}
{"id": "M641", "file": "Verif/Model/Ini.lean", "definition": "getBoolean", "old": "else if v \u2208 [\"false\".toList, \"no\".toList, \"off\".toList, \"0\".toList] then false\n  else dflt", "new": "else if v \u2208 [\"false\".toList, \"no\".toList, \"off\".toList, \"0\".toList] then false\n  else v \u2260 []", "edit": "any other word is taken as true", "claim": "C150"}
{"id": "M642", "file": "Verif/Model/FileParser.lean", "definition": "readGeneral", "old": "real r sect \"time_step\" (lit 0) /. u.refTime\n            timeEnd", "new": "real r sect \"time_step\" (real r sect \"timestep\" (lit 0)) /. u.refTime\n            timeEnd", "edit": "a second spelling of a name", "claim": "C150"}
{"id": "M643", "file": "Verif/Model/Particle.lean", "definition": "updateOpticalDepth", "old": "opticalDepth := p.opticalDepth -. dtau", "new": "opticalDepth := p.opticalDepth +. dtau", "edit": "the depth grows", "claim": "C136 C105"}
{"id": "M644", "file": "Verif/Model/Particle.lean", "definition": "updateTrack", "old": "{ p' with\n      posHistory", "new": "{ p' with\n      weight := p.weight *. lit 2\n      posHistory", "edit": "a tracked particle counts twice", "claim": "C142"}
{"id": "M645", "file": "Verif/Model/RunManager.lean", "definition": "setTime", "old": "timeEnd := timeEnd /. u.refTime", "new": "timeEnd := timeEnd", "edit": "end time not converted", "claim": "C137 C74 C122 C124"}
{"id": "M646", "file": "Verif/Model/ThreeVector.lean", "definition": "cross", "old": "a.z *. b.x -. a.x *. b.z", "new": "a.z *. b.x +. a.x *. b.z", "edit": "sign of the second component", "claim": "C141 C01 C138"}
{"id": "M647", "file": "Verif/Model/MCTools.lean", "definition": "sampleUniform", "old": "if low <=. high then .ok (us.map fun u => u *. (high -. low) +. low)", "new": "if low <=. high then .ok (us.map fun u => u *. high +. low)", "edit": "range too wide", "claim": "C135"}
{"id": "M648", "file": "Verif/Model/MCTools.lean", "definition": "randDouble", "old": "if low <=. high then .ok (u *. (high -. low) +. low)", "new": "if low <. high then .ok (u *. (high -. low) +. low)", "edit": "empty range refused", "claim": "C135"}
{"id": "M649", "file": "Verif/Model/Geant.lean", "definition": "stepOnce", "old": "let p := pushParticle lorentzForce c.emission.field c.dt s.part", "new": "let p := pushParticle landauForce c.emission.field c.dt s.part", "edit": "radiation reaction counted twice", "claim": "C134"}
{"id": "M650", "file": "Verif/Model/Geant.lean", "definition": "stepOnce", "old": "let l := pushParticleList lorentzForce c.emission.field c.dt s.list\n", "new": "let l := s.list\n", "edit": "photons do not move", "claim": "C134"}
{"id": "M651", "file": "Verif/Model/Geant.lean", "definition": "changeOf", "old": "direction := s.part.direction", "new": "direction := s.part.momentum", "edit": "direction not normalised", "claim": "C134"}
{"id": "M652", "file": "Verif/Model/Geant.lean", "definition": "Steps", "old": "| done {s} : (s.time <. c.tEnd) = false", "new": "| done {s} : (s.time <=. c.tEnd) = false", "edit": "a step more may be missing", "claim": "C134"}
{"id": "M653", "file": "Verif/Model/Numerics.lean", "definition": "interpolate1D", "old": ".ok (d0 +. (d1 -. d0) *. ((q -. s0) /. (s1 -. s0)))", "new": ".ok d0", "edit": "below the table the first value is used instead of an extrapolation", "claim": "C152"}
{"id": "M654", "file": "Verif/Model/Processes.lean", "definition": "bwInteract", "old": "if part.typeName \u2260 \"Photon\" \u2228 part.isAlive = false then .ok (part, list, r)", "new": "if part.typeName \u2260 \"Photon\" \u2228 part.isAlive = false \u2228 (bwChi cfg.field part ==. lit 0) = true then .ok (part, list, r)", "edit": "photons without a field are skipped", "claim": "C152"}
{"id": "M655", "file": "Verif/Model/Processes.lean", "definition": "bwInteract", "old": "    let deltaOD := bwDelta cfg.dt chi logt part.energy\n    let part := part.updateOpticalDepth deltaOD\n    if part.opticalDepth <. lit 0 then", "new": "    let deltaOD := bwDelta cfg.dt chi logt part.energy\n    let part := part.updateOpticalDepth deltaOD\n    if (lit 0 <=. part.opticalDepth) = false then", "edit": "the test of the optical depth is negated, so that NaN makes a pair", "claim": "C152"}
{"id": "M656", "file": "Verif/Model/Processes.lean", "definition": "bwChi", "old": "lit 0.5 *. part.energy *. (ePerp.add (dir.cross f.2)).mag", "new": "lit 0.5 *. part.energy *. ((ePerp.add (dir.cross f.2)).mag +. lit 1e-30)", "edit": "a small field is added so that chi is never zero", "claim": "C152"}
{"id": "M657", "file": "Verif/Model/Fields.lean", "definition": "amplitude", "old": "*. exp (lit (-1) *. (time -. t0 -. p.z) *. (time -. t0 -. p.z) /. (f.tau *. f.tau))", "new": "/. (lit 1 +. (time -. t0 -. p.z) *. (time -. t0 -. p.z) /. (f.tau *. f.tau))", "edit": "the pulse has a Lorentzian shape, which never underflows", "claim": "C152"}
{"id": "M658", "file": "Verif/Model/Processes.lean", "definition": "emissionLogh", "old": "if eta <. lit 1e-12 then .ok (lit 0.7193)", "new": "if eta <. lit 0 then .ok (lit 0.7193)", "edit": "no value for small eta, the table is always used", "claim": "C153"}
{"id": "M659", "file": "Verif/Model/Processes.lean", "definition": "storePhoton / stochasticInteract", "old": "    let part := part.updateOpticalDepth deltaOD\n    if part.opticalDepth <. lit 0 then\n      let chi \u2190 calculateChi cfg eta r.next.1", "new": "    let part := part.updateOpticalDepth deltaOD\n    if part.opticalDepth <=. lit 0 || eta ==. lit 0 then\n      let chi \u2190 calculateChi cfg eta r.next.1", "edit": "a lepton with eta zero emits", "claim": "C153"}
{"id": "M660", "file": "Verif/Model/Processes.lean", "definition": "emissionDelta", "old": "/. (gamma *. lit 2 *. Units.pi)", "new": "/. (eta *. lit 2 *. Units.pi)", "edit": "depth divided by eta instead of gamma", "claim": "C153"}
{"id": "M661", "file": "Verif/Model/Processes.lean", "definition": "calculateEta", "old": "+. pow (dir.dot f.1) (lit 2) /. (part.gamma *. part.gamma)) *. part.gamma", "new": "+. pow (dir.dot f.1) (lit 2) /. (dir.dot f.1 *. dir.dot f.1)) *. part.gamma", "edit": "longitudinal field divided by itself", "claim": "C153"}
{"id": "M662", "file": "Verif/Model/Processes.lean", "definition": "continuousInteract", "old": "      if cfg.eMin <. gammaE then\n        let r3 := r2.2.next", "new": "      if !(gammaE <=. cfg.eMin) then\n        let r3 := r2.2.next", "edit": "the energy test of continuous emission negated, true for NaN", "claim": "C153"}
{"id": "M663", "file": "Verif/Model/Processes.lean", "definition": "stochasticInteract", "old": ".ok (part.initOpticalDepth stored.2.next.1, stored.1, stored.2.next.2)", "new": ".ok ((part.initOpticalDepth stored.2.next.1).updateOpticalDepth (-. part.opticalDepth), stored.1, stored.2.next.2)", "edit": "what is left of the depth is carried over", "claim": "C154"}
{"id": "M664", "file": "Verif/Model/Processes.lean", "definition": "stochasticInteract", "old": "let part := part.updateOpticalDepth deltaOD\n    if part.opticalDepth <. lit 0 then\n      let chi \u2190 calculateChi cfg eta r.next.1", "new": "let part := part.updateOpticalDepth (deltaOD /. lit 2)\n    if part.opticalDepth <. lit 0 then\n      let chi \u2190 calculateChi cfg eta r.next.1", "edit": "half the rate of emission", "claim": "C154"}
{"id": "M665", "file": "Verif/Model/Processes.lean", "definition": "stochasticInteract", "old": "let stored := storePhoton cfg part gammaE list r.next.2\n      .ok", "new": "let stored := storePhoton cfg part gammaE (storePhoton cfg part gammaE list r.next.2).1 r.next.2\n      .ok", "edit": "the photon is stored twice", "claim": "C154"}
{"id": "M666", "file": "Verif/Model/Processes.lean", "definition": "stochasticInteract", "old": "let stored := storePhoton cfg part gammaE list r.next.2\n      .ok", "new": "let stored := storePhoton cfg part gammaE (list.add part) r.next.2\n      .ok", "edit": "a copy of the lepton is added to the list", "claim": "C154"}
{"id": "M667", "file": "Verif/Model/Processes.lean", "definition": "stochasticInteract", "old": "calculateChi cfg eta r.next.1\n      let gammaE := lit 2", "new": "calculateChi cfg eta r.next.2.next.1\n      let gammaE := lit 2", "edit": "the photon is chosen by the number that decides its storage", "claim": "C154"}
{"id": "M668", "file": "Verif/Model/Sim.lean", "definition": "advance", "old": "particleLoop cfg l.maxParticles 0 l r", "new": "particleLoop cfg l.nPart 0 l r", "edit": "only the particles present at the start of the step are visited", "claim": "C155"}
{"id": "M669", "file": "Verif/Model/Processes.lean", "definition": "bwInteract", "old": ".ok (part.kill, (list.add positron).add electron, r3.2)", "new": ".ok (part.kill, ((list.add positron).add electron).add electron, r3.2)", "edit": "the electron of a pair is added twice", "claim": "C155"}
{"id": "M670", "file": "Verif/Model/Processes.lean", "definition": "bwInteract", "old": "if part.typeName \u2260 \"Photon\" \u2228 part.isAlive = false then .ok (part, list, r)", "new": "if part.isAlive = false then .ok (part, list, r)", "edit": "leptons make pairs too", "claim": "C155"}
{"id": "M671", "file": "Verif/Model/Processes.lean", "definition": "storePhoton", "old": "(part.weight /. cfg.sampleFrac) part.time cfg.track r.next.2.next.1), r.next.2.next.2)", "new": "(part.weight /. cfg.sampleFrac) (lit 0) cfg.track r.next.2.next.1), r.next.2.next.2)", "edit": "the clock of a new photon starts at zero", "claim": "C155"}
{"id": "M672", "file": "Verif/Model/Processes.lean", "definition": "continuousInteract", "old": ".ok (part, list.add photon, r3.2)", "new": ".ok (part, (list.add photon).add photon, r3.2)", "edit": "the photon of continuous emission is added twice", "claim": "C155"}
{"id": "M673", "file": "Verif/Model/Program.lean", "definition": "runEvent", "old": "pure (source, \u27e8e.rng, hists, storeTrackIf tracking out e.list j\u27e9)", "new": "pure (source, \u27e8s.2.rng, hists, storeTrackIf tracking out e.list j\u27e9)", "edit": "the generator is restarted for every event", "claim": "C156"}
{"id": "M674", "file": "Verif/Model/Program.lean", "definition": "runEvent", "old": "let e \u2190 (timeLoop cfg fuel (.init l rng s.2.hists) : Timed (EvState D))", "new": "let e \u2190 (timeLoop cfg fuel (.init l s.2.rng s.2.hists) : Timed (EvState D))", "edit": "the event begins again with the number that set the primary's optical depth", "claim": "C156"}
{"id": "M675", "file": "Verif/Model/Source.lean", "definition": "generateList", "old": ".ok (list.add part, { s with partCount := s.partCount + 1 }, r')", "new": ".ok (list.add part, { s with partCount := s.partCount + 1 }, r)", "edit": "the draw of the primary is used again by the event", "claim": "C156"}
{"id": "M676", "file": "Verif/Model/Source.lean", "definition": "generateList", "old": ".ok (list.add part, { s with partCount := s.partCount + 1 }, r')", "new": ".ok (list.add part, { s with partCount := s.partCount + 1 + r.pos % 2 }, r')", "edit": "the next primary depends on how many random numbers were used", "claim": "C156"}
{"id": "M677", "file": "Verif/Model/Source.lean", "definition": "generateList", "old": "PList.new (toString s.partCount) PList.defaultMax", "new": "PList.new (toString s.partCount) (PList.defaultMax - s.partCount)", "edit": "later events have smaller particle lists", "claim": "C157"}
{"id": "M678", "file": "Verif/Model/Processes.lean", "definition": "stochasticInteract", "old": ".ok (part.initOpticalDepth stored.2.next.1, stored.1, stored.2.next.2)", "new": ".ok (part.initOpticalDepth stored.2.next.1, stored.1, stored.2)", "edit": "the draw of the new optical depth is used again", "claim": "C156"}
{"id": "M679", "file": "Verif/Model/Processes.lean", "definition": "bwInteract", "old": ".ok (part.kill, (list.add positron).add electron, r3.2)", "new": ".ok (part.kill, (list.add positron).add electron, r)", "edit": "pair production does not advance the generator", "claim": "C156"}
{"id": "M680", "file": "Verif/Model/Program.lean", "definition": "runEvents", "old": "runEvents cfg fuel output tracking k (j + 1) s", "new": "runEvents cfg fuel output tracking k (j + 1) (s.1, { s.2 with rng := \u27e8s.2.rng.draw, 0\u27e9 })", "edit": "every event but the first starts with the first random number", "claim": "C156"}
{"id": "M681", "file": "Verif/Model/Processes.lean", "definition": "storePhoton", "old": "part.time cfg.track r.next.2.next.1), r.next.2.next.2)", "new": "part.time cfg.track (lit 0)), r.next.2.next.2)", "edit": "a new photon starts with optical depth zero", "claim": "C155"}
{"id": "M682", "file": "Verif/Model/Processes.lean", "definition": "bwInteract", "old": "let deltaOD := bwDelta cfg.dt chi logt part.energy", "new": "let deltaOD := bwDelta cfg.dt chi logt part.energy *. lit 2", "edit": "the optical depth of a photon falls twice as fast", "claim": "C155"}
{"id": "M683", "file": "Verif/Model/Ini.lean", "definition": "handle", "old": "values := fun k => if k = key then some new else r.values k", "new": "values := fun k => if k = key \u2227 (c.sect \u2209 r.sections \u2228 r.sections.getLast? = some c.sect) then some new else r.values k", "edit": "the second piece of a section is ignored", "claim": "C158"}
{"id": "M684", "file": "Verif/Model/Ini.lean", "definition": "handle", "old": "sections := if c.sect \u2208 r.sections then r.sections else r.sections ++ [c.sect] }", "new": "sections := if r.sections.length = 2 then r.sections else r.sections ++ [c.sect] }", "edit": "only the first two entries count for the list of sections", "claim": "C158"}
{"id": "M685", "file": "Verif/Model/Geant.lean", "definition": "placedOf", "old": "  { position := t.position\n    time := clock", "new": "  { position := s.part.position\n    time := clock", "edit": "the track is put where the simulated lepton is", "claim": "C159"}
{"id": "M686", "file": "Verif/Model/Geant.lean", "definition": "placedOf", "old": "    time := clock\n    secondaries", "new": "    time := clock +. s.time\n    secondaries", "edit": "the clock of the track goes on by the time of the crossing", "claim": "C159"}
{"id": "M687", "file": "Verif/Model/Geant.lean", "definition": "stepOnce", "old": "  let l := pushParticleList lorentzForce c.emission.field c.dt s.list\n  let (p, l, r) \u2190 stochasticInteract c.emission p l s.rng\n  .ok \u27e8p, l, r, s.time +. c.dt\u27e9", "new": "  let l := pushParticleList lorentzForce c.emission.field (c.dt +. c.dt) s.list\n  let (p, l, r) \u2190 stochasticInteract c.emission p l s.rng\n  .ok \u27e8p, l, r, s.time +. c.dt\u27e9", "edit": "the photons are pushed twice as far as the lepton", "claim": "C159"}
{"id": "M688", "file": "Verif/Model/Geant.lean", "definition": "stepOnce", "old": "  .ok \u27e8p, l, r, s.time +. c.dt\u27e9", "new": "  .ok \u27e8pushParticle lorentzForce c.emission.field c.dt p, l, r, s.time +. c.dt\u27e9", "edit": "the lepton is pushed again after the interaction", "claim": "C159"}
{"id": "M689", "file": "Verif/Model/Package.lean", "definition": "importPackage", "old": "(_env : Option (List Char)) : Option (List Char) := some (dir ++ \"/tables\".toList)", "new": "(_env : Option (List Char)) : Option (List Char) := some (_env.getD (dir ++ \"/tables\".toList))", "edit": "the environment variable is only set if it was not set before", "claim": "C160"}
{"id": "M690", "file": "Verif/Model/Package.lean", "definition": "tableFiles", "old": "\"epsilon.table\", ", "new": "", "edit": "the installation forgets a table", "claim": "C160"}
{"id": "M691", "file": "Verif/Model/Package.lean", "definition": "importPackage", "old": "some (dir ++ \"/tables\".toList)", "new": "some (dir ++ \"/Tables\".toList)", "edit": "the variable names a directory that the installation does not make", "claim": "C160"}
{"id": "M692", "file": "Verif/Model/Program.lean", "definition": "runSources", "old": "    let w \u2190 runSource cfg fuel tracking s w\n    runSources cfg fuel tracking ss w", "new": "    let v \u2190 runSource cfg fuel tracking s w\n    runSources cfg fuel tracking ss { v with hists := w.hists }", "edit": "each source starts with the histograms of the first", "claim": "C161"}
{"id": "M693", "file": "Verif/Model/Program.lean", "definition": "runEvent", "old": "  pure (source, \u27e8e.rng, hists, storeTrackIf tracking out e.list j\u27e9)", "new": "  pure (source, \u27e8e.rng, if j = 0 then s.2.hists else hists, storeTrackIf tracking out e.list j\u27e9)", "edit": "the first event of a source is not counted", "claim": "C161"}
{"id": "M694", "file": "Verif/Model/Histogram.lean", "definition": "Hist.count", "old": "(v +. lit 1)", "new": "(lit 1)", "edit": "a bin is set to one instead of being incremented", "claim": "C161"}
{"id": "M695", "file": "Verif/Model/Histogram.lean", "definition": "Hist.incr", "old": "(n + 1) % 2 ^ 32", "new": "(n + 1) % 2 ^ 16", "edit": "the entry counter is a short", "claim": "C161"}
{"id": "M696", "file": "Verif/Model/Processes.lean", "definition": "stochasticInteract", "old": "      let part := part.updateTrack part.position (part.momentum.sub gammaP)\n      let stored", "new": "      let part := if cfg.eMin <. gammaE then part.updateTrack part.position (part.momentum.sub gammaP) else part\n      let stored", "edit": "the lepton recoils only from photons above the threshold", "claim": "C162"}
{"id": "M697", "file": "Verif/Model/Processes.lean", "definition": "continuousInteract", "old": "        .ok (part, list.add photon, r3.2)", "new": "        .ok (part.updateTrack part.position (part.momentum.sub photon.momentum), list.add photon, r3.2)", "edit": "the lepton recoils from the photons that are kept, besides the reaction force", "claim": "C162"}
{"id": "M698", "file": "Verif/Model/Processes.lean", "definition": "stochasticInteract", "old": "let deltaOD := emissionDelta cfg.dt eta logh part.gamma\n    let part := part.updateOpticalDepth deltaOD\n    if part.opticalDepth <. lit 0 then\n      let chi", "new": "let deltaOD := emissionDelta cfg.dt eta logh part.gamma *. cfg.sampleFrac\n    let part := part.updateOpticalDepth deltaOD\n    if part.opticalDepth <. lit 0 then\n      let chi", "edit": "the emission rate is scaled with the sampling fraction", "claim": "C162"}
{"id": "M699", "file": "Verif/Model/Pushers.lean", "definition": "gaunt", "old": "lit (-2) /. lit 3)\n\n/-- `radReaction` of the modified", "new": "lit (-3) /. lit 2)\n\n/-- `radReaction` of the modified", "edit": "the exponent of the Gaunt factor is -3/2", "claim": "C163"}
{"id": "M700", "file": "Verif/Model/Pushers.lean", "definition": "gaunt", "old": "pow (lit 1 +. lit 4.8 *.", "new": "pow (lit 2 +. lit 4.8 *.", "edit": "the Gaunt factor does not tend to 1 in weak fields", "claim": "C163"}
{"id": "M701", "file": "Verif/Model/Pushers.lean", "definition": "modLandauReaction", "old": "Units.alpha *. eta *. eta *. gaunt eta)", "new": "Units.alpha *. eta *. gaunt eta)", "edit": "the semiclassical reaction is linear in eta", "claim": "C163"}
{"id": "M702", "file": "Verif/Model/Console.lean", "definition": "announced", "old": "u32 (n + p.number)) 0", "new": "u32 (n + 1)) 0", "edit": "count sources instead of their particles", "claim": "C164"}
{"id": "M703", "file": "Verif/Model/Console.lean", "definition": "progress", "old": "u32 (j * threads)", "new": "u32 ((j + 1) * threads)", "edit": "count the current event as done in every thread", "claim": "C164"}
{"id": "M704", "file": "Verif/Model/Console.lean", "definition": "progress", "old": "lit ((Mpi.i32 n : Int) : \u211a)) *. lit 100", "new": "lit ((Mpi.i32 (n / threads) : Int) : \u211a)) *. lit 100", "edit": "divide by the events of one thread", "claim": "C164"}
{"id": "M705", "file": "Verif/Model/Console.lean", "definition": "reports", "old": "j % 5 == 0", "new": "j % 5 == 1", "edit": "print after other events", "claim": "C164"}
{"id": "M706", "file": "Verif/Model/Console.lean", "definition": "Main.shown", "old": "(x / 10 ^ (Int.log 10 |x| - 1)) * 10 ^ (Int.log 10 |x| - 1)", "new": "(x / 10 ^ (Int.log 10 |x|)) * 10 ^ (Int.log 10 |x|)", "edit": "one significant digit instead of two", "claim": "C164"}
{"id": "M707", "file": "Verif/Model/Ini.lean", "definition": "parseBuffers", "old": "bufs.foldl lineStep PState.init", "new": "(bufs.drop 1).foldl lineStep PState.init", "edit": "first line skipped", "claim": "C59"}
{"id": "M708", "file": "Verif/Model/Fields.lean", "definition": "GaussField.amplitude", "old": "*. exp (lit (-1) *. (time -. t0 -. p.z) *. (time -. t0 -. p.z) /. (f.tau *. f.tau))", "new": "*. exp (lit (-1) *. (time -. t0 -. p.z) *. (time -. t0 -. p.z) /. f.tau)", "edit": "pulse length not squared in the envelope", "claim": "C153"}
{"id": "M709", "file": "Verif/Model/Package.lean", "definition": "install", "old": "\"/Tables/\".toList", "new": "\"/tables/\".toList", "edit": "wrong folder of the source tree", "claim": "C160"}
{"id": "M710", "file": "Verif/Model/Package.lean", "definition": "install", "old": "| none => files p", "new": "| none => none", "edit": "other files lost", "claim": "C160"}
{"id": "M711", "file": "Verif/Model/Particle.lean", "definition": "newPhoton", "old": "new .photon (lit 0) (lit 0) position momentum weight", "new": "new .photon (lit 0) (lit 1) position momentum weight", "edit": "photons get a charge", "claim": "C43"}
{"id": "M712", "file": "Verif/Model/Particle.lean", "definition": "newLepton", "old": "new (leptonKind charge) mass charge position momentum weight", "new": "new (leptonKind charge) charge mass position momentum weight", "edit": "mass and charge swapped", "claim": "C12"}
{"id": "M713", "file": "Verif/Model/Sim.lean", "definition": "Event", "old": "fillRest s.list s.histCount s.hists = .ok hists'", "new": "fillRest s.list 0 s.hists = .ok hists'", "edit": "all histograms filled again at the end", "claim": "C41"}
{"id": "M714", "file": "Verif/Model/RunManager.lean", "definition": "BeamOn", "old": ".ran { m' with results := rs } ls", "new": ".ran m' ls", "edit": "results not kept", "claim": "C73"}
{"id": "M715", "file": "Verif/Model/Geant.lean", "definition": "Simulate", "old": "Run g.sim (.init l r []) n o", "new": "Run g.sim (.init l g.rng []) n o", "edit": "the numbers of the source drawn again in the event", "claim": "C76"}
{"id": "M716", "file": "Verif/Model/Geant.lean", "definition": "Generate", "old": "| abort : g.currentEvent = g.source.nPart \u2192", "new": "| abort : g.currentEvent = g.source.nPart - 1 \u2192", "edit": "stops one event early", "claim": "C76"}
{"id": "M717", "file": "Verif/Model/Mpi.lean", "definition": "First", "old": "l = pre ++ (tag, m) :: post \u2227 \u2200 x \u2208 pre, x.1 \u2260 tag", "new": "l = pre ++ (tag, m) :: post", "edit": "messages of one tag may overtake each other", "claim": "C55"}
{"id": "M718", "file": "Verif/Model/Threads.lean", "definition": "see", "old": "seen ++ [s.count]", "new": "seen ++ [s.count + 1]", "edit": "counter read one too high", "claim": "C57"}
{"id": "M719", "file": "Verif/Model/OutputMpi.lean", "definition": "sendSize", "old": "(.int (i32 n))", "new": "(.int (i32 (n + 1)))", "edit": "size sent one too large", "claim": "C55"}
{"id": "M720", "file": "Verif/Model/OutputMpi.lean", "definition": "recvDoubles", "old": "asDoubles n m", "new": "asDoubles (n - 1) m", "edit": "one double too few received", "claim": "C55"}
{"id": "M721", "file": "Verif/Model/Output.lean", "definition": "outputSourceIf", "old": "if outSource then m.outputSource else .ok m", "new": "if outSource then .ok m else m.outputSource", "edit": "switch inverted", "claim": "C53"}
{"id": "M722", "file": "Verif/Model/Output.lean", "definition": "addArray1D", "old": "f.createDataSet p [length] b length", "new": "f.createDataSet p [length] b (length - 1)", "edit": "last value left out", "claim": "C92"}
{"id": "M723", "file": "Verif/Model/FileParser.lean", "definition": "vec", "old": "r.getThreeVector sect name.toList dflt", "new": "r.getThreeVector name.toList sect dflt", "edit": "section and name swapped", "claim": "C79"}
{"id": "M724", "file": "Verif/Model/Geant.lean", "definition": "PostStep", "old": "r.next.2, lit 0\u27e9 n s", "new": "r, lit 0\u27e9 n s", "edit": "the first number drawn twice", "claim": "C134"}
{"id": "M725", "file": "Verif/Model/Sim.lean", "definition": "Run", "old": "| done {s} : (s.time <. cfg.timeEnd) = false \u2192", "new": "| done {s} : (cfg.timeEnd <. s.time) = true \u2192", "edit": "no end at the end time itself", "claim": "C40"}
