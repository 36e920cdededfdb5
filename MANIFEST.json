{
 "claims": [
  {
   "property": "C01",
   "status": "partial",
   "theorems": [
    "Verif.Placement.C01_exactly_one_rank",
    "Verif.Placement.C01_owner_exists",
    "Verif.Placement.C01_share",
    "Verif.Placement.C01_shares_sum",
    "Verif.Placement64.C01_accepts",
    "Verif.Placement64.C01_share_partial",
    "Verif.Placement64.C01_violated"
   ],
   "note": "False with the 64 bit numbers of the code for very large products: rank times frames per block wraps, so that a process counts frames it never accepts (C01_violated). In exact arithmetic all of it holds for every rank, number of processes, block size and frame count (the four theorems of Placement). C01_accepts: which frames a process accepts is exact in 64 bits without any condition. C01_share_partial: its own count is exact if the frames of one round of blocks fit 64 bits."
  },
  {
   "property": "C02",
   "status": "partial",
   "theorems": [
    "Verif.Placement.C02_injective",
    "Verif.Placement.C02_injective_single_file",
    "Verif.Placement.C02_slot_bound",
    "Verif.Placement.C02_file_of_rank",
    "Verif.Placement.C02_surjective",
    "Verif.Placement.C02_surjective_single_file",
    "Verif.Placement64.C02_partial",
    "Verif.Placement64.C02_single_file_partial",
    "Verif.Placement64.C02_collision",
    "Verif.Placement64.C02_violated"
   ],
   "note": "False with the 64 bit numbers of the code: blocks per file times frames per block is not checked and may wrap, so that two frames of one process are sent to the same file and slot (C02_violated, C02_collision). In exact arithmetic the placement is a bijection (theorems of Placement). C02_partial, C02_single_file_partial: the same for the machine if these products fit 64 bits."
  },
  {
   "property": "C03",
   "status": "partial",
   "theorems": [
    "Verif.Filename.C03_violated",
    "Verif.Filename.C03_partial",
    "Verif.Filename.C03_no_numbers_same_name",
    "Verif.Filename.C03_nonempty"
   ],
   "note": "False as stated: the six character number makes files 100000 and 1000000 collide (C03_violated), and numbering off gives one name. Proved below one million."
  },
  {
   "property": "C04",
   "status": "partial",
   "theorems": [
    "Verif.Acq.C04_violated",
    "Verif.Acq.C04_partial"
   ],
   "note": "False as stated: after a failed file creation the next frame recreates (truncates) files already written (C04_violated). Proved for every run in which no H5Fcreate fails, with file numbers below one million; that the start was successful is the only condition on the datasets. Rows of a dataset are modelled without wrap-around at 64 bits; C19_violated shows what that does for chunks of several frames."
  },
  {
   "property": "C05",
   "status": "partial",
   "theorems": [
    "Verif.Acq.C05_written",
    "Verif.Acq.C05_nowhere_else",
    "Verif.Acq.C05_too_old",
    "Verif.Placement64.C02_collision",
    "Verif.Placement64.C02_violated"
   ],
   "note": "Holds for every geometry whose products (frames of a round of blocks, of a file, rank times frames per block) fit 64 bits; in the model a frame for any other geometry, or for 0 processes, has an undefined outcome instead of a status. Missing for those: two frames can be written to one slot without an error (C02_collision), so that one of them is lost silently."
  },
  {
   "property": "C06",
   "status": "partial",
   "theorems": [
    "Verif.Acq.C06_violated",
    "Verif.Acq.C06_never_wraps",
    "Verif.Acq.C06_accept_partial",
    "Verif.Acq.C06_negative_number_violated"
   ],
   "note": "False as stated: the frame number is cut to 32 bits in the sign test, so in-range frames are rejected. Never wraps is proved; acceptance is proved for frame numbers below 2^31."
  },
  {
   "property": "C07",
   "status": "proved",
   "theorems": [
    "Verif.Acq.C07_mismatch_refused",
    "Verif.Acq.C07_written_matches"
   ],
   "note": ""
  },
  {
   "property": "C08",
   "status": "partial",
   "theorems": [
    "Verif.Acq.C08_monotone",
    "Verif.Acq.C08_monotone_run",
    "Verif.Acq.C08_partial",
    "Verif.Acq.C08_violated",
    "Verif.Placement64.C08_machine",
    "Verif.Placement64.C08_machine_monotone"
   ],
   "note": "Monotonicity is unconditional. The high-water claim is false with a master dataset when frames of other datasets open the next file (C08_violated); proved when every frame counts. C08_machine, C08_machine_monotone: with 64 bit numbers the counter is the same while it fits, and never goes back even if the products wrap."
  },
  {
   "property": "C09",
   "status": "partial",
   "theorems": [
    "Verif.Acq.C09_partial",
    "Verif.Acq.C09_violated",
    "Verif.Acq.C09_duplicate_completes",
    "Verif.Acq.C09_chunks_partial",
    "Verif.Acq.C09_images",
    "Verif.Acq.C09_files_violated"
   ],
   "note": "False for several images per frame (C09_violated: never completes). Proved for one image per frame, any geometry, any arrival order in the two-file window. C09_chunks_partial: with several images to a frame it holds for one process with one file, if the images make whole frames; with several files it does not (C09_files_violated). C09_images: frames must say how many images they hold, which no plugin here does; otherwise, with chunks of several images, no frame ever completes the acquisition. Any geometry here means one whose products fit 64 bits."
  },
  {
   "property": "C10",
   "status": "partial",
   "theorems": [
    "Verif.Acq.C10_partial",
    "Verif.Acq.C10_violated",
    "Verif.Acq.C10_stopped"
   ],
   "note": "False when H5Fcreate fails (a file never announced as created is announced as closed). Proved when no H5Fcreate fails."
  },
  {
   "property": "C100",
   "status": "partial",
   "theorems": [
    "Verif.PoolRace.C100_violated",
    "Verif.PoolRace.C100_many",
    "Verif.PoolRace.C100_made",
    "Verif.PoolRace.C100_partial"
   ],
   "note": "False of the code: the map of pools has no lock, so threads that ask for the first block of a size at the same time may get a pool each (C100_many, any number of threads). Proved for every schedule after one thread has been given its pool. That concurrent use of the map itself is undefined is not modelled."
  },
  {
   "property": "C101",
   "status": "partial",
   "theorems": [
    "Verif.FrameImage.C101_violated",
    "Verif.FrameImage.C101_large",
    "Verif.FrameImage.C101_vanishes",
    "Verif.FrameImage.C101_cut",
    "Verif.FrameImage.C101_shrink",
    "Verif.FrameImage.C101_new_partial",
    "Verif.FrameImage.C101_offset_partial",
    "Verif.FrameImage.C101_partial"
   ],
   "note": "False of the code: the image size is an int, so for data of 2 GiB or more it is negative or 0, and no setter keeps the image inside the data. Proved for smaller images and calls that make sense, any number of them."
  },
  {
   "property": "C102",
   "status": "partial",
   "theorems": [
    "Verif.Chain.C102_progress_partial",
    "Verif.Chain.C102_live_partial",
    "Verif.Chain.C102_terminates_partial"
   ],
   "note": "Proved for all networks and schedules with bounded queues whose waiters are woken when there is room. The queue of the code can lose a wake-up when 16 producers share it (C29_violated), so progress does not carry over to plugins with that many predecessors. Direct calls, changes of connections and exceptions are not modelled."
  },
  {
   "property": "C103",
   "status": "partial",
   "theorems": [
    "Verif.Reply.C103_violated",
    "Verif.Reply.C103_error",
    "Verif.Reply.C103_partial"
   ],
   "note": "False of the code: a plugin whose name has one character makes set_param throw, so there is no status at all, and a plugin named error, warning, plugins or shared_memory collides with those members. Proved for all other names, any number of plugins, values, errors and warnings."
  },
  {
   "property": "C104",
   "status": "partial",
   "theorems": [
    "Verif.Reply.C104_violated",
    "Verif.Reply.C104_partial"
   ],
   "note": "False of the code: the version of a plugin named odin-data replaces that of the application. Proved for all other names."
  },
  {
   "property": "C105",
   "status": "partial",
   "theorems": [
    "Verif.Reply.C105_violated",
    "Verif.Reply.C105_partial"
   ],
   "note": "False of the code: a plugin whose name has one character makes set_param throw. Proved for all other names not ending in []."
  },
  {
   "property": "C106",
   "status": "partial",
   "theorems": [
    "Verif.Reply.C106_violated",
    "Verif.Reply.C106_stopped",
    "Verif.Reply.C106_loaded_partial",
    "Verif.Reply.C106_partial"
   ],
   "note": "False of the code: commands for plugins not loaded are ignored if there is one for a plugin that is, and a plugin that does not support its command ends the loop by its exception. Proved: the commands executed are those for loaded plugins, in order, up to the first exception; the full claim for well-formed requests to loaded plugins that support them."
  },
  {
   "property": "C107",
   "status": "proved",
   "theorems": [
    "Verif.Reply.C107"
   ],
   "note": "What reset_statistics does in the plugin is its own matter; the result is what it returns. The error names only the last plugin that failed."
  },
  {
   "property": "C108",
   "status": "proved",
   "theorems": [
    "Verif.PluginConfig.C108_offset",
    "Verif.PluginConfig.C108_dummy",
    "Verif.PluginConfig.C108_blosc",
    "Verif.PluginConfig.C108_blosc_valid",
    "Verif.PluginConfig.C108_gap",
    "Verif.PluginConfig.C108_gap_new"
   ],
   "note": "For names a plugin can have without set_param throwing (C39). An empty vector of the gap filling plugin is not reported, so it restores a plugin whose vector is empty, as that of a new one. Of the Blosc plugin the commanded settings. Reads beyond a vector of fewer than two elements when it is logged are the subject of C184 (C184_ub)."
  },
  {
   "property": "C109",
   "status": "partial",
   "theorems": [
    "Verif.PluginConfig.C109_violated",
    "Verif.PluginConfig.C109_valid",
    "Verif.PluginConfig.C109_partial",
    "Verif.HalfConfig.C109_half",
    "Verif.HalfConfig.C109_half_members"
   ],
   "note": "False of the code: a parameter whose name has a slash can be configured if its parts are nested in the message as well, and is missing from a plugin restored by its report. Proved for any number of parameters whose names have no slash. C109_half says the same of every state that any messages leave, also those refused half-way: the restored plugin treats frames alike, though its members may differ (C109_half_members)."
  },
  {
   "property": "C11",
   "status": "partial",
   "theorems": [
    "Verif.Acq.C11_partial",
    "Verif.Acq.C11_violated"
   ],
   "note": "False when H5Fcreate fails. Proved when no H5Fcreate fails."
  },
  {
   "property": "C110",
   "status": "partial",
   "theorems": [
    "Verif.PluginConfig.C110_violated",
    "Verif.PluginConfig.C110_refused",
    "Verif.PluginConfig.C110_wraps",
    "Verif.PluginConfig.C110_partial"
   ],
   "note": "False of the code: the partition is reported as a signed and read as an unsigned number, so the report of a plugin with the default partition -1 is refused (C110_refused, every negative partition). Proved for configured partitions and servers the library accepts."
  },
  {
   "property": "C111",
   "status": "partial",
   "theorems": [
    "Verif.PluginConfig.C111_violated",
    "Verif.PluginConfig.C111_stale",
    "Verif.PluginConfig.C111_used",
    "Verif.PluginConfig.C111_partial"
   ],
   "note": "False of the code: a topic given before the servers is forgotten, and servers that are refused leave the old ones in the report without a producer. Proved when the first message gives servers and all servers given are accepted, any number of messages; that the topic in use is the one reported always (C111_used)."
  },
  {
   "property": "C112",
   "status": "partial",
   "theorems": [
    "Verif.PluginConfig.C112_violated",
    "Verif.PluginConfig.C112_unbound",
    "Verif.PluginConfig.C112_bound",
    "Verif.PluginConfig.C112_partial"
   ],
   "note": "False of the code: the filters for datasets and tags are not reported, so a restored live view shows all frames. Proved for rates and address, over any earlier configuration."
  },
  {
   "property": "C113",
   "status": "proved",
   "theorems": [
    "Verif.PluginConfig.C113",
    "Verif.PluginConfig.C113_empty",
    "Verif.PluginConfig.C113_blank",
    "Verif.PluginConfig.C113_trailing"
   ],
   "note": "Text processing only; what the filters do with frames is the subject of C23. A text of blanks is a filter for an empty name, and a comma at the end adds one."
  },
  {
   "property": "C114",
   "status": "partial",
   "theorems": [
    "Verif.PluginConfig.C114_violated",
    "Verif.PluginConfig.C114_sent",
    "Verif.PluginConfig.C114_path",
    "Verif.PluginConfig.C114_valid",
    "Verif.PluginConfig.C114_partial"
   ],
   "note": "False of the code: whether the lowest and highest index are written is not reported. Further, the empty path of a new writer is refused (C114_path), a negative first number is reported as a number that is refused, dimensions from 2^31 on are reported wrapped, chunks given as an empty list become the default ones, and a dataset called dims[] becomes two (examples). Proved for all other states and any number of datasets whose names have no slash."
  },
  {
   "property": "C115",
   "status": "partial",
   "theorems": [
    "Verif.Indexes.C115_violated",
    "Verif.Indexes.C115_low_partial",
    "Verif.Indexes.C115_single",
    "Verif.Indexes.C115_span",
    "Verif.Indexes.C115_continuous",
    "Verif.Indexes.C115_small",
    "Verif.Indexes.C115_off",
    "Verif.Indexes.C115_single_partial",
    "Verif.Indexes.C115_partial"
   ],
   "note": "False of the code: the attributes are computed as if every file held one block. Proved exact for one block of more than one frame to a file and for one process writing one file; the first index is right exactly for the first file of a process or one block to a file (C115_low_partial, an equivalence), with one file per process the last index is right in exactly one of them (C115_single); with an unknown number of frames it is 0 (C115_continuous)."
  },
  {
   "property": "C116",
   "status": "proved",
   "theorems": [
    "Verif.JsonText.C116",
    "Verif.JsonText.C116_text",
    "Verif.JsonText.C116_nul",
    "Verif.JsonText.C116_nan",
    "Verif.JsonText.C116_doubles"
   ],
   "note": "Proved of the event machine of the writer and the recursive reader. Numbers that are not 64-bit integers are opaque and excluded from C116; C116_doubles admits those that are written as texts denoting them; C116_nan shows that a NaN or infinity makes the text unreadable."
  },
  {
   "property": "C117",
   "status": "partial",
   "theorems": [
    "Verif.JsonText.C117_violated",
    "Verif.JsonText.C117_partial",
    "Verif.JsonText.C117_nest",
    "Verif.JsonText.C117_ends"
   ],
   "note": "False of the code: the reader recurses for each nested value without a limit, so every stack is exhausted by one more opening brackets than it holds (C117_nest); the crash cannot be caught, although the constructor of messages catches exceptions. Proved: texts with fewer opening brackets than the stack holds are read or refused (C117_partial), and reading always ends (C117_ends)."
  },
  {
   "property": "C118",
   "status": "proved",
   "theorems": [
    "Verif.JsonText.C118",
    "Verif.JsonText.C118_total",
    "Verif.JsonText.C118_crash"
   ],
   "note": "Composes C62 with C116. Time stamps enter by the assumption that boost reads back what it wrote (discharged in C194_messages); C118_total says that texts within the stack give a message or the exception, C118_crash that others do crash."
  },
  {
   "property": "C119",
   "status": "proved",
   "theorems": [
    "Verif.JsonText.C119",
    "Verif.JsonText.C119_unique",
    "Verif.JsonText.C119_refused",
    "Verif.JsonText.C119_written",
    "Verif.JsonText.C119_utf8",
    "Verif.JsonText.C119_pair"
   ],
   "note": "The grammar is an inductive relation between texts and documents. Deviations the statement makes explicit: a NUL character ends the text; the first half of a surrogate pair must be followed by a second half, while a lone second half is taken as it is; numbers beyond 64 bits, with fraction or exponent are given by an opaque function that may refuse them. C119_utf8 compares the encoder with Lean's own."
  },
  {
   "property": "C12",
   "status": "proved",
   "theorems": [
    "Verif.FW.C12_geometry_fixed",
    "Verif.FW.C12_conflict_refused",
    "Verif.FW.C12_history"
   ],
   "note": ""
  },
  {
   "property": "C120",
   "status": "partial",
   "theorems": [
    "Verif.Headers.C120_violated",
    "Verif.Headers.C120_partial",
    "Verif.Headers.C120_reads"
   ],
   "note": "False of the code: frame number and image size are cut to 32 bits (the overload of add_json_member for numbers takes uint32_t, although the caller casts to uint64_t), names are cut at a NUL. C120_partial is an equivalence: these are the only causes. C120_reads: the header is always a JSON text."
  },
  {
   "property": "C121",
   "status": "partial",
   "theorems": [
    "Verif.Headers.C121_violated",
    "Verif.Headers.C121_violated_nan",
    "Verif.Headers.C121_partial",
    "Verif.Headers.C121_nan",
    "Verif.Headers.C121_message",
    "Verif.Headers.C121_reads",
    "Verif.Headers.C121_text"
   ],
   "note": "False of the code: a negative frame number or offset wraps, parameters that are neither unsigned long nor float are null, and a float that is NaN or infinite makes the whole header unreadable (C121_nan, for every such frame): the writer refuses it after the colon, and the result of the call is ignored. C121_partial is an equivalence. C121_message adds the framing of C25. Assumes that finite floats are written as texts that denote them."
  },
  {
   "property": "C122",
   "status": "partial",
   "theorems": [
    "Verif.Handles.C122_violated",
    "Verif.Handles.C122_partial",
    "Verif.Handles.C122_closed",
    "Verif.Handles.C122_fine",
    "Verif.Handles.C122_retries",
    "Verif.Handles.C122_stuck",
    "Verif.Handles.C122_either"
   ],
   "note": "Violated: ensure_h5_result throws, so the clean-up code written for a negative result (HDF5File.cpp:168-175, 505-513) is never reached, and the local property lists and dataspaces stay open; a failed H5Fcreate loses two handles (C122_violated), and as each attempt uses a new object, n attempts lose 2 n (C122_retries). Proved: as long as no H5Dclose failed, the destructor does not throw and the number of handles left open is exactly the sum, over the failed calls, of a fixed table (C122_partial), so all are closed iff every failed call has entry 0 (C122_closed); without failures from the library, a use with distinct dataset names and none created after closing fails nowhere and leaves nothing open (C122_fine). If H5Dclose fails at a dataset that is not the first of the map, no later call and not the destructor closes the file: each attempt throws at the first dataset, closed already (C122_stuck); the destructor throwing ends the process. Modelled: a failed call changes nothing, and H5Fclose closes the objects in the file (H5F_CLOSE_STRONG). C122_either: for all failures, the destructor throws exactly if closing once failed at a dataset that is not the first of the map, and otherwise the table gives the number of handles left open, a failed H5Dclose losing none."
  },
  {
   "property": "C123",
   "status": "partial",
   "theorems": [
    "Verif.Dataset.C123_violated",
    "Verif.Dataset.C123_partial",
    "Verif.Dataset.C123_no_failed_extension",
    "Verif.Dataset.C123_lost"
   ],
   "note": "False of the code: extend_dataset records the new size before it calls H5Dset_extent, so after a failure the dataset is not extended again (C123_violated). C123_partial is an equivalence: accepted are exactly the frames that start inside the real extent or end behind the recorded size. C123_lost: after a failed extension every frame up to that slot that starts behind the extent is refused, however often it is sent, until one of a later slot comes. C123_no_failed_extension: failures of other calls do no harm. Rows as 64 bit numbers without wrap-around (see C19 for that); a library that refuses chunks outside the extent."
  },
  {
   "property": "C124",
   "status": "partial",
   "theorems": [
    "Verif.Dataset.C124_violated",
    "Verif.Dataset.C124_violated_ub",
    "Verif.Dataset.C124_partial",
    "Verif.Dataset.C124_memory",
    "Verif.Dataset.C124_runs"
   ],
   "note": "False of the code: a frame with a parameter of the wrong type is refused after its image and the parameters before it were stored, without being announced (C124_violated); a parameter with the name of a dataset with image dimensions makes H5Sselect_hyperslab read past the array elementSize[1] (C124_violated_ub). Proved: an accepted frame has everything at its place; whatever the outcome, nothing else in the file changes (C124_partial); the array is overrun only for datasets of more than one dimension (C124_memory); after any accepted frames a dataset of parameters holds in each row the value of the last frame of that slot (C124_runs)."
  },
  {
   "property": "C125",
   "status": "partial",
   "theorems": [
    "Verif.MetaText.C125_violated",
    "Verif.MetaText.C125_partial",
    "Verif.MetaText.C125_same"
   ],
   "note": "False of the code: the header is parsed as a const char *, so one with a NUL character behind a JSON text is published as that text's document (C125_violated). C125_partial: holds for every header, given that it has no NUL character or is no JSON text up to it, and that the numbers of the header that are no 64 bit integers are written as a text that denotes them (Okay, as in C116_doubles). C125_same: a word and the same word as a JSON string are published alike, so subscribers cannot tell which was given."
  },
  {
   "property": "C126",
   "status": "proved",
   "theorems": [
    "Verif.MetaText.C126",
    "Verif.MetaText.C126_injective"
   ],
   "note": "Contents of the messages only: which events are published is C54, and whether the messages arrive C99. Reading is by the grammar of C119, so it holds for every JSON reader that keeps 64 bit integers."
  },
  {
   "property": "C127",
   "status": "partial",
   "theorems": [
    "Verif.Layout.C127_violated",
    "Verif.Layout.C127_partial",
    "Verif.Layout.C127_fill",
    "Verif.Layout.C127_needed",
    "Verif.Layout.C127_size",
    "Verif.Layout.C127_unlimited",
    "Verif.Layout.C127_fixed"
   ],
   "note": "False of the code: chunk dimensions smaller than the image can be configured, and the image is then stored as one chunk that cannot be read (C127_violated). C127_partial: holds for chunks of whole frames (the default) and not more frames to a chunk than the dataset has; C127_needed: both conditions are needed, as otherwise not even the first frame reads back. C127_size: the size of the image is not checked, and any other size makes the chunk unreadable. C127_unlimited and C127_fixed: when all rows of a frame are inside the dataset. Of HDF5 the documented rules for creating, writing and reading unfiltered chunks are modelled; rows outside a fixed dataset whose length is no multiple of the chunk do not read. C127_fill: under the same conditions the elements of a slot nothing was written to read as the fill value."
  },
  {
   "property": "C128",
   "status": "partial",
   "theorems": [
    "Verif.Layout.C128_violated",
    "Verif.Layout.C128_partial",
    "Verif.Layout.C128_value"
   ],
   "note": "False of the code for chunks of several frames: it is the size of one frame (C128_violated, C128_value). C128_partial: for chunks of whole frames it is right exactly if the chunk is one frame; then the 32 bit arithmetic does not wrap, as HDF5 refuses chunks of 4 GiB."
  },
  {
   "property": "C129",
   "status": "partial",
   "theorems": [
    "Verif.FW.C129_violated",
    "Verif.FW.C129_violated_rank",
    "Verif.FW.C129_violated_timeout",
    "Verif.FW.C129_cause",
    "Verif.FW.C129_partial"
   ],
   "note": "False of the code: the next acquisition is started in the worker or timeout thread, and if its file or datasets cannot be created the exception ends the process, whereas the same failure after a command is reported to the client. C129_violated: HDF5 cannot create the file. With an HDF5 that never fails: C129_violated_rank, no frame of the next acquisition is for this process; C129_violated_timeout, a dataset has a zero dimension. C129_cause: nothing else throws. C129_partial: holds for every history in which HDF5 creates what it is asked for, rank, number of processes and frames per block stay as they are with the rank below the number, all described datasets can be created and all acquisitions are endless or have a frame for this process. Exceptions are those of the file writer model; pushing a frame on can throw only for types that earlier pushes refused. The products of the geometry are taken to fit 64 bits."
  },
  {
   "property": "C13",
   "status": "partial",
   "theorems": [
    "Verif.FW.C13_violated",
    "Verif.FW.C13_zero_processes_ub",
    "Verif.FW.C13_partial",
    "Verif.Placement64.C13_product_ub",
    "Verif.Placement64.C13_product_violated"
   ],
   "note": "False as stated: number = 0 is accepted and the next frame count divides by zero (C13_violated). Proved for all histories whose messages do not contain number = 0 or a dataset without chunks. Nor does anything check the products: frames per block times the number of processes wraps to 0 for accepted settings, and is then divided by (C13_product_ub, C13_product_violated); C13_partial is therefore for settings below 2^32."
  },
  {
   "property": "C130",
   "status": "partial",
   "theorems": [
    "Verif.Sharing.C130_violated",
    "Verif.Sharing.C130_schedule",
    "Verif.Sharing.C130_race",
    "Verif.Sharing.C130_dummy",
    "Verif.Sharing.C130_partial",
    "Verif.Sharing.C130_values_partial",
    "Verif.Sharing.C130_exclusive_partial",
    "Verif.Sharing.C130_kinds_partial"
   ],
   "note": "False of the code: all connected plugins get the same object, and the sum, offset, parameter and dummy plugins change it. A file writer connected beside an offset plugin writes the frame with or without the offset, depending on the threads (C130_violated, C130_schedule); both can be in process_frame with it at the same time (C130_race). C130_partial: holds if no plugin changes frames that others can have; C130_values_partial: then every run is one of the model with frames as values (Chain), so that C74, C75 and C102 apply; C130_exclusive_partial: then a plugin that changes a frame has it alone. C130_kinds_partial: for the plugins of the repository this means that sum, offset, parameter and dummy plugins are connected alone or behind a plugin that copies. process_frame reads and changes the frame at one moment; plugins called directly are not modelled. C130_dummy: the dummy process plugin changes what a plugin beside it gets, even when it copies frames."
  },
  {
   "property": "C131",
   "status": "partial",
   "theorems": [
    "Verif.Pipeline.C131_violated",
    "Verif.Pipeline.C131_violated_gaps",
    "Verif.Pipeline.C131_violated_behind",
    "Verif.Pipeline.C131_violated_negative",
    "Verif.Pipeline.C131_partial",
    "Verif.Pipeline.C131_times",
    "Verif.Pipeline.C131_sum",
    "Verif.Pipeline.C131_dummy"
   ],
   "note": "False of the code: no plugin looks at the compression of the frame it is given. A compressed frame is compressed again and says that it is compressed once (C131_violated; C131_times: it has to be decompressed as often as it was compressed), gaps are inserted into the compressed bytes (C131_violated_gaps), and into whatever lies behind them in memory (C131_violated_behind), and the sum is that of the compressed bytes (C131_sum). Negative gaps, which the configuration takes, give dimensions near 2^64 (C131_violated_negative). C131_partial: holds for every frame that is not compressed on every way on which only plugins that leave the image alone follow the compression, with configurations of gaps without negative numbers; the image is then that of the same way without compression. C131_dummy: the frames of the dummy process plugin are truthful. The compressor is any function that can be undone on images up to the size blosc takes."
  },
  {
   "property": "C132",
   "status": "partial",
   "theorems": [
    "Verif.Pipeline.C132_violated",
    "Verif.Pipeline.C132_partial"
   ],
   "note": "False of the code for frames that are compressed twice (C132_violated). C132_partial: holds on every way on which only plugins that leave the image alone follow the compression, with configurations of gaps without negative numbers. One frame to a chunk, as configured by default. The Blosc filter of HDF5 is modelled as the decompressor, applied by the reader to each stored chunk."
  },
  {
   "property": "C133",
   "status": "partial",
   "theorems": [
    "Verif.BloscShared.C133_violated",
    "Verif.BloscShared.C133_mixed",
    "Verif.BloscShared.C133_partial",
    "Verif.BloscShared.C133_acquisition",
    "Verif.BloscShared.C133_default"
   ],
   "note": "False of the code: compressor and number of threads are settings of the library, of which there is one in the process. Loading a second plugin resets them for the first (C133_violated), and the start of an acquisition in one plugin changes the compressor in the middle of an acquisition of another (C133_mixed). C133_partial: holds for a plugin from when it is loaded as long as no other is used; C133_acquisition: from the first frame of an acquisition as long as no other is used; C133_default: for any number of plugins none of which is ever given another compressor or number of threads than the default. Operations are atomic; that two threads are in the library at the same time is not modelled. Unavailable compressors: C24."
  },
  {
   "property": "C134",
   "status": "partial",
   "theorems": [
    "Verif.Pipeline.C134_violated",
    "Verif.Pipeline.C134_unconfigured",
    "Verif.Pipeline.C134_violated_dims",
    "Verif.Pipeline.C134_violated_twice",
    "Verif.Pipeline.C134_twice_witness",
    "Verif.Pipeline.C134_partial"
   ],
   "note": "False of the code: a gap fill plugin that is not configured reads its empty vectors with every frame (C134_violated, C134_unconfigured), a frame with one dimension makes a configured one read beyond the dimensions (C134_violated_dims), and an image of the largest size can be too large to be compressed a second time, which throws (C134_violated_twice, C134_twice_witness). C134_partial: holds for every truthful frame with two dimensions that is not compressed, on every way on which the gap fill plugins are configured (two numbers for grid and chip, gaps that are not negative, lengths that are ints, an enlarged image of at most the limit; a configuration for another image size is allowed, and drops the frame) and nothing is done to the image after its compression. Not covered: compressors that the library does not have, which throw at configuration (BloscPlugin.cpp 160-183), the file writer (C129), exceptions of memory allocation, and the metadata channel."
  },
  {
   "property": "C135",
   "status": "partial",
   "theorems": [
    "Verif.EndToEnd.C135_violated",
    "Verif.EndToEnd.C135_overwritten",
    "Verif.EndToEnd.C135_frame",
    "Verif.EndToEnd.C135_partial",
    "Verif.EndToEnd.C135_packet",
    "Verif.EndToEnd.C135_whole",
    "Verif.EndToEnd.C135_simulated",
    "Verif.EndToEnd.C135_dropped",
    "Verif.EndToEnd.C135_gaps",
    "Verif.EndToEnd.C135_large",
    "Verif.ManyFiles.C135_files_partial",
    "Verif.ManyFiles.C135_too_late",
    "Verif.ManyFiles.C135_files_late"
   ],
   "note": "False of the code: a packet that comes after its frame has timed out (and after a packet of another frame) opens the frame a second time; when that times out too, it is written over the first, with zeros for every packet that had been in the file (C135_violated, C135_overwritten). A frame with a number of 2^31 or more is not written at all: its number is converted to int before the offset is checked (C135_large). C135_partial: every byte of the frame handed on last with its number, which is below 2^31, is in the file, at the place of its number plus what plugins add to its offset, as it was sent, and zeros are for the packets of it that did not arrive; nothing fails on the way (C135_packet says the same for a packet; C135_frame for the image before the plugins). C135_whole: without time-outs and with as many buffers as frames nothing is lost at all, in whatever order packets come. C135_simulated: after frames of the simulator (C44) pixel i of every frame of this process in the file is i modulo 2^16. C135_dropped: a frame a plugin keeps to itself leaves the file as it is and does not disturb the next. C135_gaps: with a gap fill plugin on the way, after plugins that keep the image, every byte of every pixel of the detector is in the file at the place its layout gives the pixel, and the gaps are zero. C135_files_partial: the same with several files (blocks_per_file not zero) and adjusted offsets, for a frame none of whose predecessors goes more than one file further; C135_too_late: a frame that comes after one at least two files further is not written at all, although its file is there (C135_files_late is such a run). Not covered: datasets with several frames to a chunk (C132)."
  },
  {
   "property": "C136",
   "status": "partial",
   "theorems": [
    "Verif.Remap.C136_violated",
    "Verif.Remap.C136_violated_early",
    "Verif.Remap.C136_violated_renamed",
    "Verif.Remap.C136_stale",
    "Verif.Remap.C136_unlinked",
    "Verif.Remap.C136_unopened",
    "Verif.Remap.C136_partial",
    "Verif.Remap.C136_all"
   ],
   "note": "False of the code. C136_stale, in every reachable state: the flags that ask for a reconfiguration are never cleared, so any configuration message that is obeyed makes decoder, memory and thread anew; the processor is told a second later, and reads every frame announced before from the old memory, in which it is not. C136_unlinked, in every reachable state: a message that takes the type of the decoder back to \"unknown\" keeps the decoder, which lets go of the old manager only after the new one has been made under the same name; its destructor removes that name, so that no processor can open the memory, and the one that is told of it ends by an exception. C136_violated_early: a processor that asks before there is memory is told the default name and ends; C136_violated_renamed: so does one that is told a name that is replaced before it gets round to it. C136_partial, C136_all: if messages are obeyed only when the processor has caught up, frames come only after it has been told and requests only when there is memory, then no processor fails, every frame is read from where it is, none is lost, and the processor has the memory of the receiver. Not modelled: sizes of the memory (C30), what happens to frames of the old memory that are still held (C46, C86)."
  },
  {
   "property": "C137",
   "status": "partial",
   "theorems": [
    "Verif.Loader.C137_violated",
    "Verif.Loader.C137_violated_missing",
    "Verif.Loader.C137_violated_index",
    "Verif.Loader.C137_violated_taken",
    "Verif.Loader.C137_origin",
    "Verif.Loader.C137_only",
    "Verif.Loader.C137_missing",
    "Verif.Loader.C137_partial",
    "Verif.Loader.C137_refused"
   ],
   "note": "False of the code: once a name is registered the path is not looked at, so the class comes from the library of the first load (C137_violated), even if the one asked for does not exist (C137_violated_missing); so a receiver told of another decoder_path makes its new decoder from the old library. An index in use gets a positive reply and nothing is loaded (C137_violated_index). A library can take over names of another (C137_violated_taken). C137_origin says from which library an object always comes: the one opened last of those that register the name. C137_partial: if no two libraries register the same name, the library registers the name and the index is free, the reply is positive exactly if the constructor does not throw, and then the plugin is the one asked for. C137_refused: a library that does not have the class gives a negative reply and leaves the plugins as they are, if no library opened before has it."
  },
  {
   "property": "C138",
   "status": "partial",
   "theorems": [
    "Verif.Locking.C138_violated",
    "Verif.Locking.C138_connect_violated",
    "Verif.Locking.C138_configured_violated",
    "Verif.Locking.C138_timer_violated",
    "Verif.Locking.C138_exact",
    "Verif.Locking.C138_listed",
    "Verif.Locking.C138_errors",
    "Verif.Locking.C138_intact",
    "Verif.Locking.C138_configured",
    "Verif.Locking.C138_partial"
   ],
   "note": "False of the code: an end of acquisition and the commands of a file writer take no mutex, so they change the acquisition while a frame is written (C138_violated) or while the timeout closes the file (C138_timer_violated); connecting plugins changes the list of callbacks of a plugin that is handing on a frame (C138_connect_violated); six of the nine plugins can be configured while they process a frame (C138_configured_violated), which for the Kafka plugin means that the topic it has just looked at is destroyed. C138_exact gives the complete list: a race of two methods on a member occurs if and only if it is in the table `races`. C138_errors: the messages never race. C138_intact: in the summing, offset, dummy and Blosc plugins only single words and the list of callbacks do. C138_configured: the file writer, the Blosc and the summing plugin are not configured while they process a frame. C138_partial: if control messages come when nothing is processed and no plugin is connected as blocking to this one, the only races left are those of the timeout of a file writer with an end of acquisition, and on the flag of the timeout. What the races lead to (torn values, use after free) is not modelled: C++ gives them no meaning."
  },
  {
   "property": "C139",
   "status": "partial",
   "theorems": [
    "Verif.Flush.C139_violated",
    "Verif.Flush.C139_clock_violated",
    "Verif.Flush.C139_failed_violated",
    "Verif.Flush.C139_earliest_violated",
    "Verif.Flush.C139_written",
    "Verif.Flush.C139_frames",
    "Verif.Flush.C139_closed",
    "Verif.Flush.C139_partial"
   ],
   "note": "False of the code: parameters are flushed only when another value is written, so the last values of a pause are not seen until the file is closed (C139_violated); the local time is used, so for an hour after the clocks are set back nothing is flushed (C139_clock_violated); a flush that failed counts as done (C139_failed_violated); with the earliest file version nothing is flushed, as is documented by HDF5 (C139_earliest_violated). C139_partial: if the clock is not set back and flushes succeed, then after each write all that was written a second (and the millisecond that is cut off) before it is seen. C139_frames: a frame is seen at once. C139_closed: after closing all is seen."
  },
  {
   "property": "C14",
   "status": "proved",
   "theorems": [
    "Verif.FW.C14_foreign_untouched",
    "Verif.FW.C14_written_into_own",
    "Verif.FW.C14_own_frames_written",
    "Verif.FW.C14_next_switches"
   ],
   "note": "C14_next_switches is for geometries with at least one process and one frame per block and products that fit 64 bits; for others the outcome of the model is undefined (C13)."
  },
  {
   "property": "C140",
   "status": "partial",
   "theorems": [
    "Verif.Capture.C140_violated",
    "Verif.Capture.C140_padded",
    "Verif.Capture.C140_truncated_violated",
    "Verif.Capture.C140_arp_violated",
    "Verif.Capture.C140_other_violated",
    "Verif.Capture.C140_start_violated",
    "Verif.Capture.C140_whole",
    "Verif.Capture.C140_partial",
    "Verif.Capture.C140_again"
   ],
   "note": "False of the code: the length of the Ethernet frame is used instead of the one in the UDP header, so padding becomes data (C140_violated, C140_padded); the length on the wire is used instead of the captured one, so bytes are read that are not there (C140_truncated_violated); the protocol is not looked at, so ARP and TCP packets are replayed as packets of the detector (C140_arp_violated, C140_other_violated); a file that begins inside a frame indexes an empty vector (C140_start_violated). C140_partial: if the file holds only the datagrams, in full and without padding, then the frames are stored as they were sent. C140_again: so are the frames the simulator itself made up. C140_whole: whatever the file, stored frames begin with a start of frame and have no second one. IP fragments are not modelled (each is taken for a datagram)."
  },
  {
   "property": "C141",
   "status": "partial",
   "theorems": [
    "Verif.Capture.C141_violated",
    "Verif.Capture.C141_all_violated",
    "Verif.Capture.C141_partial",
    "Verif.Capture.C141_once"
   ],
   "note": "False of the code: for -1 nothing is sent, whatever the file (C141_violated, C141_all_violated): the option has a default, so the branch that takes all frames is never reached, and the loop compares with -1. C141_partial: numbers that are not negative are obeyed (a packet gap of 0 divides by zero, see C82). C141_once: a file captured in full without padding, replayed once, gives the captured datagrams in their order."
  },
  {
   "property": "C142",
   "status": "partial",
   "theorems": [
    "Verif.Signals.C142_violated",
    "Verif.Signals.C142_twice_violated",
    "Verif.Signals.C142_lost_violated",
    "Verif.Signals.C142_thread_violated",
    "Verif.Signals.C142_crash",
    "Verif.Signals.C142_partial",
    "Verif.Signals.C142_goes_on",
    "Verif.Signals.C142_hour",
    "Verif.Signals.C142_timeout"
   ],
   "note": "False of the code: the handlers are installed before the controller is made, and its pointer is not tested, so an early signal dereferences a null pointer (C142_violated), as does a second one after the destructor of the application (C142_twice_violated); a signal between the test of the flag and the wait is not noticed until a message comes or an hour is over (C142_lost_violated); a signal handled by the RX thread ends that thread and sets the flag, but the main thread goes on waiting (C142_thread_violated; Linux prefers the main thread, POSIX does not promise it). C142_partial: a signal handled by the main thread at any other time ends the receiver within five steps of the main thread, without a wait. C142_goes_on: and no thread waits in vain. C142_hour, C142_timeout: in all cases with a controller the receiver waits for input once more at most, for an hour at most. C142_crash: the two times named are the only ones at which a signal crashes it. The processor has no handler for these signals and is ended by the system."
  },
  {
   "property": "C143",
   "status": "partial",
   "theorems": [
    "Verif.FW.C143_violated",
    "Verif.FW.C143_lost",
    "Verif.FW.C143_partial",
    "Verif.FW.C143_idle",
    "Verif.FW.C143_closed"
   ],
   "note": "False of the code: an end of acquisition says nothing about which acquisition has ended. If the last frame of the first acquisition arrives and the second is configured, then the second is started at once, and the end of the first, coming next, stops it (C143_violated); all frames of the second are then dropped (C143_lost). C143_partial, C143_closed: if the acquisition still runs, its end ends it, closes its files and starts the next one. C143_idle: without a running acquisition it does nothing."
  },
  {
   "property": "C144",
   "status": "partial",
   "theorems": [
    "Verif.Stops.C144_violated",
    "Verif.Stops.C144_next_violated",
    "Verif.Stops.C144_lost_violated",
    "Verif.Stops.C144_partial",
    "Verif.Stops.C144_held",
    "Verif.Stops.C144_idle",
    "Verif.Stops.C144_end",
    "Verif.Stops.C144_stop",
    "Verif.Stops.C144_mutex"
   ],
   "note": "False of the code, as ends of acquisition and commands take no mutex: an acquisition is stopped twice by its end and by a command (C144_violated); the timeout and the end of one acquisition end also the next (C144_next_violated); a command to start during the end of an acquisition makes the configured acquisition disappear and starts one without a name twice (C144_lost_violated). C144_held: frames, timeouts and configurations alone, of any number of threads, keep the order. C144_partial: so do all methods if none begins during another. C144_idle: while nothing is written, the end of an acquisition and the timeout start and stop nothing. C144_end: an end of acquisition that nothing interrupts stops the acquisition and starts the next one exactly if that is configured and has another name; C144_stop: a command to stop starts nothing. C144_mutex: at no time are two threads in methods that take the mutex."
  },
  {
   "property": "C145",
   "status": "proved",
   "theorems": [
    "Verif.Itoa.C145",
    "Verif.Itoa.C145_u32",
    "Verif.Itoa.C145_u64",
    "Verif.Itoa.C145_decimal",
    "Verif.Itoa.Spec.unique"
   ],
   "note": "Proved of the four functions with their table. C145_decimal joins them to the writer of Verif.JsonText (C116); Spec.unique: no text denotes two integers."
  },
  {
   "property": "C146",
   "status": "partial",
   "theorems": [
    "Verif.JsonBuffer.C146_violated",
    "Verif.JsonBuffer.C146_long",
    "Verif.JsonBuffer.C146_partial",
    "Verif.JsonBuffer.short_iff"
   ],
   "note": "False of the code: the room for a string, 2 + length * 6, is computed in 32 bits, so a string of 715827883 bytes reserves room for four characters and runs out of the buffer (C146_violated, C146_long); whether an assertion stops it depends on RAPIDJSON_ASSERT. C146_partial: it holds of all documents whose strings are at most 715827882 bytes long (short_iff). That what dtoa writes has at most 25 characters, none of them NUL, is a hypothesis; C148_reserved proves it."
  },
  {
   "property": "C147",
   "status": "proved",
   "theorems": [
    "Verif.Dtoa.C147_number",
    "Verif.Dtoa.C147_zero",
    "Verif.Dtoa.C147_reserved",
    "Verif.Dtoa.C147_cut"
   ],
   "note": "Proved for the default of 324 decimal places, the only one odin-data uses. The loops that leave out zeros are not reached then; C147_cut says by itself what they do. That Grisu2 gives such digits, and that they denote a number near the double, is not part of this property. C147_reserved discharges the assumption of C146 about the texts of doubles for all texts made from such digits."
  },
  {
   "property": "C148",
   "status": "proved",
   "theorems": [
    "Verif.Grisu.C148",
    "Verif.Grisu.C148_reserved",
    "Verif.Grisu.C148_powers",
    "Verif.Grisu.grisu_ok"
   ],
   "note": "Proved of the branches that GCC compiles for x86-64, with double arithmetic in GetCachedPower rounded to nearest after each operation. No loop runs on, no shift is by 64 bits or more, no table is accessed outside, no product overflows: each of these is an outcome of its own in the model. Not claimed, as Grisu2 does not promise it: that the text is the shortest. C148_reserved discharges the assumption of C146 about dtoa."
  },
  {
   "property": "C149",
   "status": "partial",
   "theorems": [
    "Verif.ReadDouble.C149_partial",
    "Verif.ReadDouble.C149_read",
    "Verif.ReadDouble.C149_violated"
   ],
   "note": "The code violates the full statement: odin-data parses without kParseFullPrecisionFlag, and 970166.4882681987 is read as the next larger double (C149_violated); about one in five random doubles is affected, so a value that is sent in a configuration and read back from the status may differ. Partial: if the digits of the text, without the point, are below 2^53 and the last one counts 10^-22 to 10^22, reading gives the nearest double (C149_read, for all JSON numbers, also those not written by this code), hence the double that was written, and a document of such doubles and integers survives (Okay, the hypothesis of C116_doubles). The model was compared with an independent emulation on 360 numbers."
  },
  {
   "property": "C15",
   "status": "proved",
   "theorems": [
    "Verif.FW.C15_config_keeps_current",
    "Verif.FW.C15_config_does_not_disturb"
   ],
   "note": ""
  },
  {
   "property": "C150",
   "status": "partial",
   "theorems": [
    "Verif.ReadDouble.C150_partial",
    "Verif.ReadDouble.C150_positive",
    "Verif.ReadDouble.C150_finite",
    "Verif.ReadDouble.C150_refused",
    "Verif.ReadDouble.C150_infinite",
    "Verif.ReadDouble.C150_overflow"
   ],
   "note": "The code violates the full statement twice. `9e308` is read as infinity without an error (C150_infinite); the writer later refuses infinity, so a reply that repeats the value is cut off. `0.0000000000e-2147483639` makes exp + expFrac overflow an int (C150_overflow); where it wraps around, Pow10 is called with 2147483647, which fails its assertion or reads outside of the table, so that one message stops the process. Partial: numbers without a positive exponent, of any number of digits, with at most nine places, or at most 10^9 places and an exponent above -214748364. C150_positive: with a positive exponent and at most 10^8 places nothing overflows and the result is finite or infinite; C150_finite: it is finite for digits below 2^53 if the number is at most 1.797e308. C150_refused: digits below 2^53 are refused if the last one counts more than 10^308."
  },
  {
   "property": "C151",
   "status": "proved",
   "theorems": [
    "Verif.PoolAllocator.C151"
   ],
   "note": "The caller only reallocates and writes blocks it owns, and passes the size it last asked for. Sizes near 2^64 are rounded up to zero (shown as an example), which no caller reaches: they pass at most 2^32 elements of 32 bytes. The fields of a header are kept beside the memory; that no block covers a header is part of the theorem."
  },
  {
   "property": "C152",
   "status": "proved",
   "theorems": [
    "Verif.JsonPointer.C152",
    "Verif.JsonPointer.C152_large"
   ],
   "note": "The form that begins with '#' is not modelled, since odin-data puts a slash in front of every path. The bound on arrays is needed: the test for an overflow of the index misses 6442450944, which is taken for 2147483648 (C152_large); an array of that size takes 34 gigabytes."
  },
  {
   "property": "C153",
   "status": "partial",
   "theorems": [
    "Verif.JsonPointer.C153_partial",
    "Verif.JsonPointer.C153_update",
    "Verif.JsonPointer.C153_violated",
    "Verif.JsonPointer.C153_dash",
    "Verif.JsonPointer.C153_missing",
    "Verif.JsonPointer.C153_stops"
   ],
   "note": "The code violates the full statement: with parameters at `a/0` and `a/x` the first makes an array, the second replaces the array by an object, and the first parameter is lost (C153_violated). Partial: paths that do not differ first in an index and a name, without a part `-` and with indices below 2^28; a second container of the class is then equal after the update (C153_update). Parameters that the document does not have keep their values without an error (C153_missing); a value of the wrong type ends the update in the middle (C153_stops). This replaces the simplification of C52, where all parts of a path are names."
  },
  {
   "property": "C154",
   "status": "partial",
   "theorems": [
    "Verif.Programs.C154_processor_partial",
    "Verif.Programs.C154_receiver_partial",
    "Verif.Programs.C154_simulator_partial",
    "Verif.Programs.C154_simulator_info",
    "Verif.Programs.C154_runs_on",
    "Verif.Programs.C154_processor_violated",
    "Verif.Programs.C154_receiver_violated",
    "Verif.Programs.C154_simulator_violated",
    "Verif.Programs.C154_violated"
   ],
   "note": "The code violates the full statement. The processor swallows a std::runtime_error of a configuration and runs on; both applications ignore a reply that refuses a configuration. The simulator ignores what parse_arguments returns: it ends with status 0 if the library or the plugin is missing, with status 1 after --help and --version, and after a detector option that is given twice it simulates with the options up to there (see C200). Partial: the controller is constructed, exceptions are std::exceptions, no configuration is refused in a reply or swallowed, and for the processor the file is an array (see C78); for the simulator, a possible simulation is made and ends with 0."
  },
  {
   "property": "C155",
   "status": "partial",
   "theorems": [
    "Verif.RxSockets.C155_udp_partial",
    "Verif.RxSockets.C155_tcp_partial",
    "Verif.RxSockets.C155_zmq_partial",
    "Verif.RxSockets.C155_tcp_violated",
    "Verif.RxSockets.C155_udp_violated",
    "Verif.RxSockets.C155_zmq_violated",
    "Verif.RxSockets.C155_decoder_violated",
    "Verif.RxSockets.C155_violated"
   ],
   "note": "The code violates the full statement. The TCP thread sets SO_REUSEADDR to the size of the buffer instead of SO_RCVBUF. The UDP thread only logs that the operating system gave it less than the 30000000 bytes of the default. A ZeroMQ endpoint that is refused throws in the thread, where nothing catches it. A decoder of another kind than the thread is cast to null, which is dereferenced when data arrives (C155_decoder_violated, for all configurations). Partial: a decoder of the kind of the thread; for UDP a buffer within the limit, for TCP and ZeroMQ the default buffer, and for ZeroMQ endpoints that are accepted."
  },
  {
   "property": "C156",
   "status": "partial",
   "theorems": [
    "Verif.SimPorts.C156_partial",
    "Verif.SimPorts.C156_violated",
    "Verif.SimPorts.C156_taken"
   ],
   "note": "The code violates the full statement: send_packet binds the socket of the simulator to the address it sends to. On the same machine, if no receiver runs yet, this succeeds: the simulator is sent its own packets and no receiver that uses the port comes up while it runs (C156_taken, for all ports). Partial: the receiver is on another machine, or listens when the first packet is sent. The port that the operating system gives the simulator is assumed to be none of those used."
  },
  {
   "property": "C157",
   "status": "proved",
   "theorems": [
    "Verif.JsonValue.C157_numbers",
    "Verif.JsonValue.C157_truth",
    "Verif.JsonValue.C157_no_text",
    "Verif.JsonValue.C157_strings",
    "Verif.JsonValue.C157_const",
    "Verif.JsonValue.C157_moved_number",
    "Verif.JsonValue.C157_moved_string"
   ],
   "note": "The layout is that of x86-64 (48-bit pointers, little endian). The allocator gives memory below 2^48 that does not overlap the value (C151). The conversion of an integer to a double in GetDouble is not modelled."
  },
  {
   "property": "C158",
   "status": "partial",
   "theorems": [
    "Verif.JsonCopy.C158_copy",
    "Verif.JsonCopy.C158_strings",
    "Verif.JsonCopy.C158_partial",
    "Verif.JsonCopy.C158_violated",
    "Verif.JsonCopy.C158_string_violated",
    "Verif.JsonCopy.C158_vector_violated",
    "Verif.JsonCopy.C158_params_violated",
    "Verif.JsonCopy.C158_reference_violated"
   ],
   "note": "Violated. (a) get_value of a string (ParamContainer.cpp:273-276) refers to the characters of the parameter, so a document that was encoded changes, or is left dangling, when the parameter is assigned or the container is destroyed. (b) The elements of a vector are allocated with the document of the container (ParamContainer.h:237-252), and a document parameter with its own allocator. (c) copy_params (IpcMessage.cpp:439-450) copies with the allocator of the message, so the copy dies with it, and dereferences null if the path leads nowhere. (d) get_param of a reference with a slash in the name (IpcMessage.h:154-155) returns a reference into a message that is local to the function; it is reached, for example, by a configuration with a dataset \"a/b\" beside a dataset \"a\" with a member \"b\" (FileWriterPlugin.cpp:294). Proved: deep copies by the events of Accept and the stack of GenericDocument are right for all values; the content is right while the container or message lives; numbers and booleans need nothing; what is put into a message needs only the message if no string of it is by reference."
  },
  {
   "property": "C159",
   "status": "proved",
   "theorems": [
    "Verif.JsonGrow.C159"
   ],
   "note": "On top of C151. The headers of arrays and objects are kept beside the memory; that they survive a move is C157. The bound of 2^31 elements is needed: the capacity has 32 bits, and from two thirds of 2^32 elements on it wraps to a smaller one, without a new block, and PushBack writes behind the old one (an example in the file; that takes 45 GB of memory)."
  },
  {
   "property": "C16",
   "status": "partial",
   "theorems": [
    "Verif.CloseTimeout.C16_violated",
    "Verif.CloseTimeout.C16_violated_next",
    "Verif.CloseTimeout.C16_config_deadlock",
    "Verif.CloseTimeout.C16_partial",
    "Verif.CloseTimeout.exclusive_run"
   ],
   "note": "False of the code: lock order inversion between process_frame (close_file_mutex_, mutex_, then start_timeout_mutex_) and the timeout thread (start_timeout_mutex_, then the others); two witness schedules, and one with configure. Proved when the timer is only requested while its thread waits to be started and no message starts it."
  },
  {
   "property": "C160",
   "status": "partial",
   "theorems": [
    "Verif.ReleasePath.C160_partial",
    "Verif.ReleasePath.C160_violated",
    "Verif.ReleasePath.C160_lost"
   ],
   "note": "Violated: the frame number is an int on the way to the processor, negative from 2^31 on, and the release notification carries it as an unsigned number of 64 bits. The log statement of level 2 in handle_frame_release_channel asks for it as an int, which throws; the handler reports an error in the decoding of the message and the release is neither forwarded nor counted, so every buffer of such a frame is lost (C160_lost), and the receiver runs dry. Below that level, and for the first 2^31 frames, the buffer comes back (C160_partial)."
  },
  {
   "property": "C161",
   "status": "partial",
   "theorems": [
    "Verif.NameMaps.C161_partial",
    "Verif.NameMaps.C161_violated",
    "Verif.NameMaps.C161_alone",
    "Verif.NameMaps.C161_at"
   ],
   "note": "Violated: the map is taken as complete when it is not empty, so a thread that comes while another one inserts the names finds some of them missing, and a valid message is refused as illegal or sent with the type \"illegal\". In the frame receiver the receiver thread encodes its first message after it has let the main thread go on (FrameReceiverRxThread.cpp:159-162), and the main thread may then decode its first control message. What holds: an answer is the right one or \"illegal\" and never another entry, `at` never throws, and a thread that begins before the first or after the last insertion is right. Each access is one step; that concurrent access is undefined behaviour in C++ makes it worse and is not modelled."
  },
  {
   "property": "C162",
   "status": "partial",
   "theorems": [
    "Verif.Notices.C162_partial",
    "Verif.Notices.C162_violated",
    "Verif.Notices.C162_late",
    "Verif.Notices.C162_release",
    "Verif.Notices.C162_passes",
    "Verif.Notices.C162_processor"
   ],
   "note": "Violated: numbers of buffers are not checked when they arrive, and what get_buffer_address and the constructor of SharedBufferManager throw is not caught. A processor that still holds a frame of a larger memory when the receiver is configured with a smaller one ends the receiver when it releases that frame (C162_late); in general any release with a number that is not that of a buffer does (C162_release). The processor ends by a frame in memory it has not mapped yet, and by a name that does not exist (C162_processor). What holds: if numbers and names fit to what the one that gets the message has, no text ends a program, whatever else is in it. That another exception than IpcMessageException ends the program follows from the handlers and the event loop, which catch nothing else."
  },
  {
   "property": "C163",
   "status": "partial",
   "theorems": [
    "Verif.JsonText.C163_partial",
    "Verif.JsonText.C163_violated",
    "Verif.JsonText.C163_low",
    "Verif.JsonText.C163_read",
    "Verif.JsonText.C163_write"
   ],
   "note": "Violated: an escape for the second half of a surrogate pair that does not follow a first half is accepted and becomes three bytes that are not UTF-8 (C163_low; a first half without a second one is an error). Everything else holds: C163_read and C163_write for all strings, C163_partial for all texts in UTF-8. The encoding of the specification is that of the Lean library (String.utf8EncodeChar), the grammar is that of RFC 8259 over characters. Texts that are not UTF-8 are passed through without a check (the default flags do not validate), which the model does too."
  },
  {
   "property": "C164",
   "status": "partial",
   "theorems": [
    "Verif.FrameMeta.C164_partial",
    "Verif.FrameMeta.C164_violated",
    "Verif.FrameMeta.C164_param",
    "Verif.FrameMeta.C164_valid",
    "Verif.FrameMeta.C164_eoa",
    "Verif.FrameMeta.C164_copy",
    "Verif.FrameMeta.C164_assign"
   ],
   "note": "Violated: the constructor of EndOfAcquisitionFrame hands its own member meta_data_, which does not exist yet, to the base class to be copied from, so frame number, data type, compression and offset of every such frame are read before they are set (C164_eoa; the plugins of the code do not use these values); the copy of a frame has no data size (C164_copy) and an assigned frame keeps its old one (C164_assign). What holds: without those frames every answer but the size is right through all copies, and the size is right without copies of whole frames; parameters are given as the type they were set with and as no other; validity is that of data type and compression. An adjusted offset must stay in 64 bits."
  },
  {
   "property": "C165",
   "status": "partial",
   "theorems": [
    "Verif.OutOfMemory.C165_partial",
    "Verif.OutOfMemory.C165_violated",
    "Verif.OutOfMemory.C165_returned",
    "Verif.OutOfMemory.C165_block",
    "Verif.OutOfMemory.C165_drop",
    "Verif.OutOfMemory.C165_resize",
    "Verif.OutOfMemory.C165_null",
    "Verif.OutOfMemory.C165_copy",
    "Verif.OutOfMemory.C165_empty"
   ],
   "note": "Violated: of the places that take memory by hand only get_buffer of the Blosc plugin (which nothing calls) looks at the answer and acts on it. A data block without memory keeps a pointer that was never set (C165_block, C165_drop), one that could not be resized keeps the pointer to the memory it has returned (C165_resize); both write an error to the log and go on. The others write to a null pointer (C165_null). What holds: as long as there is memory, nothing is undefined, and the memory taken is exactly that of the objects. That posix_memalign leaves the pointer alone when it fails is what glibc does; the standard says less. An exception between malloc and free in insert_gaps (std::bad_alloc of the new frame) would leave its image behind and is not modelled."
  },
  {
   "property": "C166",
   "status": "partial",
   "theorems": [
    "Verif.Datagram.C166_headed",
    "Verif.Datagram.C166_partial",
    "Verif.Datagram.C166_bytes_partial",
    "Verif.Datagram.C166_violated",
    "Verif.Datagram.C166_empty",
    "Verif.Datagram.C166_first",
    "Verif.Datagram.C166_long",
    "Verif.Datagram.all_same"
   ],
   "note": "Violated: the number of bytes received is passed to the decoder by both calls and used by neither. A datagram one byte short leaves a byte of the frame that was in the buffer before (C166_violated); one shorter than the header, or a call that fails, is taken for the last packet once more and completes a frame of which packets are missing (C166_empty); as the first of all it makes the decoder read memory that was never written (C166_first). C166_headed: if every datagram has a header, the bytes of each packet are those of one datagram for it as far as that goes. C166_partial: true if every datagram has a header and a payload of the size of packets, or more (what is more is cut off, C166_long); for frames that time out it is true of the packets marked as received. That the condition on duplicates cannot be dropped is C33_violated."
  },
  {
   "property": "C167",
   "status": "partial",
   "theorems": [
    "Verif.KafkaDelivery.C167_partial",
    "Verif.KafkaDelivery.C167_violated",
    "Verif.KafkaDelivery.C167_when"
   ],
   "note": "Violated: enqueue_frame looks at the topic before it takes the mutex (lines 375 and 380), so a configuration in between that the library does not take leaves it with a null pointer, which is passed to rd_kafka_produce (C167_violated; C167_when says that this is the only way). C167_partial: true if configurations that the library refuses come when no frame is between the look and the mutex."
  },
  {
   "property": "C168",
   "status": "partial",
   "theorems": [
    "Verif.KafkaDelivery.C168_partial",
    "Verif.KafkaDelivery.C168_ledger",
    "Verif.KafkaDelivery.C168_violated",
    "Verif.KafkaDelivery.C168_dropped",
    "Verif.KafkaDelivery.C168_reset"
   ],
   "note": "Violated: a delivery that fails is written to the log and counted nowhere (C168_violated), as are messages that the flush of one second does not deliver when the servers are set again (C168_dropped); an acknowledgement after a reset counts a message that is not among those sent (C168_reset). C168_ledger: without resets, sent = acknowledged + in the library + failed or dropped, modulo 2^32. C168_partial: the statement, if none failed or was dropped."
  },
  {
   "property": "C169",
   "status": "partial",
   "theorems": [
    "Verif.BlockIndex.C169_partial",
    "Verif.BlockIndex.C169_one_pool",
    "Verif.BlockIndex.C169_mapped_partial",
    "Verif.BlockIndex.C169_sound",
    "Verif.BlockIndex.C169_violated",
    "Verif.BlockIndex.C169_same_pool",
    "Verif.BlockIndex.C169_forgotten"
   ],
   "note": "Violated: the counter of indices belongs to all pools, and each pool has a mutex of its own; of two threads with frames of two sizes one can set the counter back, and then two blocks of one pool have the same index (C169_violated, C169_same_pool), and the map of used blocks forgets one that is in use (C169_forgotten). True if only one thread at a time constructs blocks (C169_partial), in particular if frames of one size only are made (C169_one_pool, C169_mapped_partial). Harmless: whatever the indices, no block is handed to two users or lost, and the numbers of free and used blocks are right (C169_sound), because frames and the free list hold pointers and the map is never read."
  },
  {
   "property": "C17",
   "status": "partial",
   "theorems": [
    "Verif.Acq.C17_violated",
    "Verif.Acq.C17_partial",
    "Verif.Acq.C17_one_process_partial",
    "Verif.Placement64.C17_frames",
    "Verif.Placement64.C17_int_ub",
    "Verif.Placement64.C17_machine_partial",
    "Verif.Placement64.C17_machine_violated"
   ],
   "note": "False as stated: with more than one process and chunks of several frames the dataset of a file can be too small (C17_violated). Proved for one frame per chunk, and for one process with any chunk. The arithmetic above is exact; the code computes this size with int and 64 bit numbers. C17_frames: the two agree if the frame counts are below 2^31; beyond, the product of ints is undefined behaviour (C17_int_ub, C17_machine_violated)."
  },
  {
   "property": "C170",
   "status": "partial",
   "theorems": [
    "Verif.SimReplay.C170_partial",
    "Verif.SimReplay.C170_reported",
    "Verif.SimReplay.C170_violated",
    "Verif.SimReplay.C170_overflow",
    "Verif.SimReplay.C170_simulated",
    "Verif.SimReplay.C170_default"
   ],
   "note": "Violated: a packet that sendto refuses counts as sent, and its result -1 is added to the bytes (C170_violated; in general C170_reported). The sums are of type int, so that from 2^31 bytes on the behaviour is undefined (C170_overflow); with the default options, 1000 frames of 1400 times 1024 pixels, every complete run is of this kind (C170_default, from C170_simulated). True if no call fails and the sums fit (C170_partial)."
  },
  {
   "property": "C171",
   "status": "partial",
   "theorems": [
    "Verif.SimReplay.C171_partial",
    "Verif.SimReplay.C171_exact",
    "Verif.SimReplay.C171_only",
    "Verif.SimReplay.C171_replay",
    "Verif.SimReplay.C171_violated"
   ],
   "note": "Violated: the numbers are compared as texts, so that 01 drops nothing, and neither does a number with a space before it (C171_violated, examples). True for numbers as they are usually written (C171_partial, with the replay of C82 C171_replay). Nothing is dropped that is not listed, whatever the text (C171_only)."
  },
  {
   "property": "C172",
   "status": "partial",
   "theorems": [
    "Verif.FW.C172_partial",
    "Verif.FW.C172_exact",
    "Verif.FW.C172_idle",
    "Verif.FW.C172_foreign",
    "Verif.FW.C172_violated"
   ],
   "note": "Violated: while nothing is written, frames end at the file writer (C172_violated, C172_idle), and so do frames of other acquisitions (C172_foreign); a live view behind it shows nothing then. C172_exact: passed on are exactly the frames handed to an acquisition, if nothing throws; so while one is written all its frames are, the invalid ones and those of other processes too (C172_partial)."
  },
  {
   "property": "C173",
   "status": "partial",
   "theorems": [
    "Verif.WriterEnd.C173_ends",
    "Verif.WriterEnd.C173_joined",
    "Verif.WriterEnd.C173_partial",
    "Verif.WriterEnd.C173_violated"
   ],
   "note": "Violated: if the thread has just found timeout_thread_running_ set (line 922) when the destructor clears both flags, it sets timeout_active_ again, misses the notification and waits for the whole timeout period, holding the mutex the destructor needs (C173_violated). C173_partial: at every other moment the timeout need not expire. C173_ends: in all cases the destructor ends (number of steps bounded but for spurious wake-ups, and never stuck), and C173_joined: the thread has ended before the members go."
  },
  {
   "property": "C174",
   "status": "partial",
   "theorems": [
    "Verif.WriterEnd.C174_partial",
    "Verif.WriterEnd.C174_arms_partial",
    "Verif.WriterEnd.C174_violated",
    "Verif.WriterEnd.C174_spurious",
    "Verif.WriterEnd.C174_lost"
   ],
   "note": "Violated: start_condition_ is waited for without a predicate. A spurious wake-up arms the timer and, after the timeout period (0 unless configured), stops the acquisition that is being written (C174_spurious, C174_violated). A request made before the thread has reached its first wait is lost for good (C174_lost). Proved without spurious wake-ups (C174_partial) and once the thread has been waiting (C174_arms_partial)."
  },
  {
   "property": "C175",
   "status": "partial",
   "theorems": [
    "Verif.RxEndpoints.C175_partial",
    "Verif.RxEndpoints.C175_violated",
    "Verif.RxEndpoints.C175_back",
    "Verif.RxEndpoints.C175_unreachable",
    "Verif.RxEndpoints.C175_dead"
   ],
   "note": "Violated: the old endpoint is given up before it is known whether the new one can be bound. If a new control endpoint cannot be bound the command is refused, and a second later the timer unbinds the old one: the receiver cannot be reached any more (C175_unreachable). This happens without any fault of the system if the endpoint is changed back within the second, as the old one is then still bound (C175_back). The other channels lose their endpoint at once, it is still reported, and sending it again does not bind it (C175_dead). Proved as long as no command has been refused (C175_partial)."
  },
  {
   "property": "C176",
   "status": "partial",
   "theorems": [
    "Verif.RxStats.C176_partial",
    "Verif.RxStats.C176_frames",
    "Verif.RxStats.C176_since",
    "Verif.RxStats.C176_violated",
    "Verif.RxStats.C176_stale",
    "Verif.RxStats.C176_on_the_way",
    "Verif.RxStats.C176_lost",
    "Verif.RxStats.C176_released"
   ],
   "note": "Violated: the status shows the last message of the receiver thread, so the old values are still there after the reset has been acknowledged (C176_stale), and a message on its way brings them back (C176_on_the_way); the counters belong to another thread and are reset without a lock, so that a reset in the middle of an increment is lost (C176_lost); frames received before and released after the reset are counted as released only (C176_released). Proved: once a status sent after the reset has arrived, and unless the reset came in the middle of an increment, the value is exact modulo 2^32 (C176_partial), and without a reset frames received are those released and those still out (C176_frames); after a reset the frames received are counted from there, and the released ones are these and those that were out then (C176_since)."
  },
  {
   "property": "C177",
   "status": "partial",
   "theorems": [
    "Verif.StatsReset.C177_udp",
    "Verif.StatsReset.C177_partial",
    "Verif.StatsReset.C177_violated",
    "Verif.StatsReset.C177_tcp"
   ],
   "note": "Violated: reset_statistics of the TCP decoder also resets the number of its buffer, so that the next frame goes to buffer 1 again, or to buffer 0 if the reset comes in the middle of choosing the buffer, whatever is in it (C177_tcp). Proved in full for the UDP decoder (C177_udp: same frames, same buffers, same queues); for the TCP decoder the same frames are stored in the same order, in other buffers (C177_partial). Both with resets between packets and in the middle of them, before the payload is stored or afterwards; a reset in the middle of a tick of the buffer monitor is one after it. For the counters themselves see C176."
  },
  {
   "property": "C178",
   "status": "partial",
   "theorems": [
    "Verif.ElementType.C178_partial",
    "Verif.ElementType.C178_frames_partial",
    "Verif.ElementType.C178_params_partial",
    "Verif.ElementType.C178_filter_partial",
    "Verif.ElementType.C178_violated",
    "Verif.ElementType.C178_unknown"
   ],
   "note": "Violated: any name is acknowledged, and every name but five makes a dataset of unsigned 16 bit numbers (C178_violated, C178_unknown); its frames are then refused, while parameters of 16 bits are stored. Proved: for the five names the type, its size and the fill value are right (C178_partial); the filter is the one named, and there is none for a name that is not known (C178_filter_partial); whatever was configured, an accepted frame has the type, the element size and the filter of its dataset (C178_frames_partial), and a stored parameter the type of its dataset (C178_params_partial). Filters are only named."
  },
  {
   "property": "C179",
   "status": "partial",
   "theorems": [
    "Verif.Receiver.C179_partial",
    "Verif.Receiver.C179_decoder_partial",
    "Verif.Receiver.C179_accepted",
    "Verif.Receiver.C179_violated",
    "Verif.Receiver.C179_refused_value"
   ],
   "note": "Violated: the frame count is reported as \"frame_count\" and read as \"frames\", so it is not restored (C179_violated). Proved: everything else is, and for the decoder exactly what the first one reported is stored (C179_partial); a decoder in whatever state initialised with it is configured like the first (C179_decoder_partial), for values that were accepted: a packet size over the limit is refused but kept, and then reported (C179_refused_value). The report is accepted if the calls of the surroundings succeed, the kind of reception is known and there is a path (C179_accepted). Only the UDP decoder; the TCP decoder reports a frame size that it does not read."
  },
  {
   "property": "C18",
   "status": "partial",
   "theorems": [
    "Verif.Acq.C18_violated",
    "Verif.Acq.C18_partial",
    "Verif.Acq.C18_strict_library_partial",
    "Verif.Acq.C18_refused",
    "Verif.Placement64.C18_machine",
    "Verif.Placement64.C18_machine_wrong",
    "Verif.Placement64.C18_machine_violated",
    "Verif.Placement64.C18_machine_partial"
   ],
   "note": "False as stated: the bound check is skipped when the maximal offset is 0 (and it compares frames with chunks). Proved when the extent is at least two, and when the HDF5 library itself rejects out-of-extent writes. C18_refused is for geometries whose products fit 64 bits. The code puts the last offset into an int: C18_machine: this makes no difference up to 2^31 frames; beyond, frames outside are let through, and from 2^32 + 2 frames on frames inside are refused (C18_machine_wrong, C18_machine_violated)."
  },
  {
   "property": "C180",
   "status": "partial",
   "theorems": [
    "Verif.MessageEq.C180_violated",
    "Verif.MessageEq.C180_sign",
    "Verif.MessageEq.C180_rounded",
    "Verif.MessageEq.C180_twice",
    "Verif.MessageEq.C180_zero",
    "Verif.MessageEq.C180_partial",
    "Verif.MessageEq.C180_refl",
    "Verif.MessageEq.C180_symm",
    "Verif.MessageEq.C180_nan",
    "Verif.MessageEq.C180_nan_differs",
    "Verif.MessageEq.C180_infinity",
    "Verif.Receiver.C180_noticed",
    "Verif.Receiver.C180_overlooked"
   ],
   "note": "Violated: id and time stamp are not compared, although the comment in the code says all fields are (C180_violated); -1 equals 18446744073709551615, because the bits are compared (C180_sign); integers above 2^53 equal the doubles next to them (C180_rounded); with two members of one name the comparison is not symmetric and a message may differ from itself (C180_twice), as it does with the character zero in a name (C180_zero). C180_partial: type, value and parameters are compared rightly for messages without such names whose numbers are all signed, all unsigned, or below 2^53 and doubles; C180_refl, C180_symm. Consequence for the frame receiver: a changed configuration of the decoder is noticed (C180_noticed) but for these exceptions (C180_overlooked)."
  },
  {
   "property": "C181",
   "status": "partial",
   "theorems": [
    "Verif.WriterLife.C181_violated",
    "Verif.WriterLife.C181_not_closed",
    "Verif.WriterLife.C181_exactly",
    "Verif.WriterLife.C181_partial",
    "Verif.WriterLife.C181_last",
    "Verif.WriterLife.C181_order",
    "Verif.WriterLife.C181_thread",
    "Verif.WriterLife.C181_rest",
    "Verif.WriterLife.C181_both"
   ],
   "note": "Violated: hdf5_error_definition_ is declared after current_acquisition_ and so destroyed before it; a file still open is closed by the destructor of the acquisition, which reads the definition through a reference. A file is open without the writer writing if HDF5 refuses a dataset of the first file (C181_violated) or a closing failed (C181_not_closed), and this is the only way (C181_exactly). C181_partial: true if neither has happened; C181_last: true if the last start was good and was not followed by a stop; C181_order: with the definition declared first it would always be true; C181_thread: the timeout thread uses only members declared before it. C181_both: if the previous file cannot be closed, the current one is left open as well. That closing a file a second time fails again, and so ends the program, is left out."
  },
  {
   "property": "C182",
   "status": "partial",
   "theorems": [
    "Verif.Ipc.C182_violated",
    "Verif.Ipc.C182_nested",
    "Verif.Ipc.C182_separator",
    "Verif.Ipc.C182_partial",
    "Verif.Ipc.C182_absent",
    "Verif.Ipc.C182_no_object",
    "Verif.Ipc.C182_int"
   ],
   "note": "Violated: the overload with a default does not split the name, so every nested parameter reads as the default (C182_violated, C182_nested), and a member with a separator in its name is found only here (C182_separator). C182_partial: true of names without separator, as all names in the processes are; C182_absent: without parameters it is the default; C182_no_object: parameters that are no object raise an exception, and only those; C182_int: the integers read in the processes, with an exception for another type and for more than 32 bits."
  },
  {
   "property": "C183",
   "status": "partial",
   "theorems": [
    "Verif.SimInterval.C183_violated",
    "Verif.SimInterval.C183_longer",
    "Verif.SimInterval.C183_shorter",
    "Verif.SimInterval.C183_partial",
    "Verif.SimInterval.C183_valid",
    "Verif.SimInterval.C183_long",
    "Verif.SimInterval.C183_none",
    "Verif.SimInterval.C183_run"
   ],
   "note": "Violated: the time of the sending is measured with time(), in whole seconds, so it counts as 0 unless a second begins meanwhile (C183_longer: it is then added to the interval) and as a second or more otherwise (C183_shorter: intervals up to that are dropped). C183_partial: the interval is wrong by at most a second plus rounding. C183_valid: the float arithmetic gives nanosleep a valid time within 61 ns; C183_long: waits of 2^31 s and more overflow int. C183_run: the same for each frame of a run. nanosleep is taken as exact and uninterrupted."
  },
  {
   "property": "C184",
   "status": "partial",
   "theorems": [
    "Verif.HalfConfig.C184_violated",
    "Verif.HalfConfig.C184_others",
    "Verif.HalfConfig.C184_kafka",
    "Verif.HalfConfig.C184_gap",
    "Verif.HalfConfig.C184_list",
    "Verif.HalfConfig.C184_ub",
    "Verif.HalfConfig.C184_partial",
    "Verif.HalfConfig.C184_exactly",
    "Verif.HalfConfig.C184_accepted",
    "Verif.HalfConfig.C184_defined",
    "Verif.HalfConfig.C184_gaps"
   ],
   "note": "Violated by every plugin with more than one parameter: they are set one after the other, and those before the wrong one stay set (C184_violated for the dummy plugin, C184_others). Single parameters can do harm too: servers that are no text destroy the Kafka producer (C184_kafka), a grid size that is no list empties the grid, after which every frame is undefined behaviour (C184_gap), and a list with a wrong element becomes one with zeros (C184_list); at debug level 1 the log message about a grid of fewer than two numbers reads outside of the vector (C184_ub). C184_partial: true of the offset plugin, and of the dummy, Blosc and live view plugins if the message has only one of their parameters. C184_exactly: in general, what the parameters before the wrong one set, and what this one does. C184_accepted: accepted configurations are those of C108 to C112. C184_defined: nothing is undefined without debug messages."
  },
  {
   "property": "C185",
   "status": "partial",
   "theorems": [
    "Verif.HalfConfig.C185_violated",
    "Verif.HalfConfig.C185_path",
    "Verif.HalfConfig.C185_dataset",
    "Verif.HalfConfig.C185_partial",
    "Verif.HalfConfig.C185_writing",
    "Verif.HalfConfig.C185_accepted"
   ],
   "note": "Violated: parameters are set one after the other, so those before the wrong one stay set (C185_violated). A path that is no directory gives an error but the rest of the message is taken over, so that the next files go to the old path under the new name (C185_path). The definition of a new dataset that is refused leaves a dataset without dimensions, and creating the next file indexes its empty list of chunks (C185_dataset). C185_partial: after an exception nothing has changed if the message has one parameter (alone, or in the part process or file), or configures one dataset that exists. C185_writing: while writing, no message changes number of processes, rank, frames per block or blocks per file, even if it fails half-way. C185_accepted: accepted messages do what C114 says. The number of frames of the process is not modelled."
  },
  {
   "property": "C186",
   "status": "partial",
   "theorems": [
    "Verif.Receiver.C186_violated",
    "Verif.Receiver.C186_down",
    "Verif.Receiver.C186_stopped",
    "Verif.Receiver.C186_complete",
    "Verif.Receiver.C186_kept",
    "Verif.Receiver.C186_partial",
    "Verif.Receiver.C186_sole",
    "Verif.Receiver.C186_again"
   ],
   "note": "Violated. Settings before the wrong one are kept (C186_violated), also a decoder that cannot be loaded, so that commands which were accepted before are refused from then on (C186_kept). Worse, as the decoder is always loaded again (C36), a receiver at work that gets ports of the wrong type and nothing else has given up its decoder, memory and thread before it refuses: it receives nothing any more, although its settings are the same and it is still reported complete (C186_down). In general, no thread is left after a refusal that comes when something has been set up anew (C186_stopped), and the reported completeness never changes (C186_complete). What holds: a refusal before that leaves decoder, memory and thread (C186_partial); one parameter of the wrong type, other than the decoder configuration, leaves the settings (C186_sole); if the stored settings can be set up, the next command brings the receiver up, even one without parameters (C186_again). Exceptions that end the program are the subject of C38 and C162."
  },
  {
   "property": "C187",
   "status": "partial",
   "theorems": [
    "Verif.Dispatch.C187_violated",
    "Verif.Dispatch.C187_setting",
    "Verif.Dispatch.C187_types",
    "Verif.Dispatch.C187_unapplied",
    "Verif.Dispatch.C187_slash",
    "Verif.Dispatch.C187_nested",
    "Verif.Dispatch.C187_half",
    "Verif.Dispatch.C187_loop",
    "Verif.Dispatch.C187_partial",
    "Verif.Dispatch.C187_one"
   ],
   "note": "Violated: names are not checked when a plugin is loaded. Under the name of a setting of the controller no configuration is accepted (C187_violated, C187_setting; C187_types: each setting of the controller is refused with a value of another type, and no plugin sees the message, nor if a setting is refused for what it says, C187_unapplied). A name with a slash is taken for a path: what is sent under the name is acknowledged and reaches nobody (C187_slash), and a part of the configuration of another plugin reaches it (C187_nested). If one of several plugins refuses, those before it in the alphabet have their new configuration and the others have not (C187_half). Proved for names without slash and messages without settings of the controller: each plugin gets its part once, up to the first that refuses, and the message is accepted exactly if all accept (C187_partial, C187_one; C187_loop for the loop alone). What the settings do is the environment; what a refusing plugin keeps is the subject of C184 and C185."
  },
  {
   "property": "C188",
   "status": "partial",
   "theorems": [
    "Verif.ProcessorReport.C188_violated",
    "Verif.ProcessorReport.C188_own",
    "Verif.ProcessorReport.C188_refused",
    "Verif.ProcessorReport.C188_lost",
    "Verif.ProcessorReport.C188_unloaded",
    "Verif.ProcessorReport.C188_partial",
    "Verif.ProcessorReport.C188_half",
    "Verif.ProcessorReport.C188_single"
   ],
   "note": "Violated: where an endpoint can be bound once, every processor refuses its own report, whatever was sent to it before, and its plugins do not see it (C188_violated, C188_own, C188_refused): the control endpoint is bound again although it has not changed. Another processor accepts the report although the plugins are not loaded there, and their settings are lost: the report does not say which plugins are loaded, nor how they are connected (C188_unloaded). The report of a processor without a frame receiver has empty endpoints; a processor that is sent it drops its own connection before it finds that, refuses, and goes on reporting the endpoints of the connection that is gone (C188_lost). Proved for another processor with plugins of the same names, where the endpoints can be bound and connected to: it accepts the report, has the same endpoints and settings of the plugins, and reports the same (C188_partial). If a plugin refuses its part, the report is refused with the endpoints and the plugins before it changed already (C188_half); a setting with only one of the two endpoints of the frame receiver is passed over without an error (C188_single). Each plugin is one value; what the single plugins do with what they report is in C108-C114. ZeroMQ is the environment; an ipc endpoint can be bound a second time, which takes it away from the first socket."
  },
  {
   "property": "C189",
   "status": "partial",
   "theorems": [
    "Verif.Processes.C189_violated",
    "Verif.Processes.C189_lost",
    "Verif.Processes.C189_unnumbered",
    "Verif.Processes.C189_partial",
    "Verif.Processes.C189_frames",
    "Verif.Processes.C189_one"
   ],
   "note": "Violated: the number in a name has six characters, so that from one million on (the starting index counts) ten files have the same name; a process that starts empties the file of another (C189_violated, C189_lost). Without file numbers all processes have one file (C189_unnumbered). C189_partial: below one million every file of every process is as if it were alone, also if other processes end with an exception. C189_frames: so every byte of a frame that comes to the process it is for is in the directory, under the conditions of C135_files_partial for this process and none for the others; C189_one: there is exactly one process that a frame is for. Locks of HDF5 on files are left out, as is a file that is deleted or moved while it is open."
  },
  {
   "property": "C19",
   "status": "partial",
   "theorems": [
    "Verif.Dataset.C19_violated",
    "Verif.Dataset.C19_violated_extent",
    "Verif.Dataset.C19_dataset_partial",
    "Verif.Acq.C19_room",
    "Verif.Acq.C19_extent_grows_partial",
    "Verif.Acq.C19_stored_inside_partial",
    "Verif.Acq.C04_partial"
   ],
   "note": "False of the code for one dataset: rows are 64 bit numbers, so with chunks of eight frames frame 2^61 is stored over frame 0 (C19_violated); and after a failed H5Dset_extent a chunk is accepted that reaches over the extent (C19_violated_extent). C19_dataset_partial: for frames whose rows fit 64 bits the extent never shrinks, everything stored is inside it, and every slot holds what was stored last, whichever library calls fail; if no extension fails all rows of accepted frames are inside. For whole acquisitions (model Acquisition, rows of any size, extensions that do not fail): room for each accepted frame is unconditional; extents growing and all stored values staying inside and readable is proved for runs in which no H5Fcreate fails (after such a failure files are truncated, C04_violated)."
  },
  {
   "property": "C190",
   "status": "partial",
   "theorems": [
    "Verif.Library.C190_violated",
    "Verif.Library.C190_two",
    "Verif.Library.C190_end",
    "Verif.Library.C190_file",
    "Verif.Library.C190_cause",
    "Verif.Library.C190_partial",
    "Verif.Library.C190_returned",
    "Verif.Library.C190_live"
   ],
   "note": "Violated: commands and ends of acquisitions are handled without the mutex of the writer, and the mutex of HDF5File is one per file. The command that starts the next acquisition creates its file while the worker thread still closes the last (C190_violated); so does the end of an acquisition while the timeout closes the file (C190_end). Two file writers in one process have nothing in common that would keep them apart (C190_two). C190_file: two threads are never in the library with the same file object. C190_cause: two threads in the library are of different writers, or one of them handles a command or the end of an acquisition. C190_partial: with one writer, while neither is handled, there is one at a time. C190_returned: no thread keeps a mutex when it is done; C190_live: of these mutexes no deadlock comes (start_timeout_mutex_, left out here, is another matter). A library built to be thread safe is not affected."
  },
  {
   "property": "C191",
   "status": "partial",
   "theorems": [
    "Verif.H5Errors.C191_violated",
    "Verif.H5Errors.C191_attribute",
    "Verif.H5Errors.C191_stale",
    "Verif.H5Errors.C191_partial",
    "Verif.H5Errors.C191_next",
    "Verif.H5Errors.C191_close",
    "Verif.H5Errors.C191_attributes"
   ],
   "note": "Violated: the results of H5Acreate2 (lines 524, 531) are not checked, so the report is of the H5Awrite after it, and why the attribute was not made is lost (C191_violated, C191_attribute). Also, the constructor of the first file object copies the entries of the stack as it finds it; if something else in the process had met an error before, and H5Eset_auto2 does not empty the stack, the texts of those entries are freed with the next call and read with the next error (C191_stale). C191_partial: with neither of these every report is as it should be, whatever errors were before. C191_next: so it is after a report, even of the first object. C191_close, C191_attributes: if nothing can be written to an attribute that was not made, no failure goes unreported: the first failed call is reported, or the one after it. One thread; H5Eset_auto2 and H5Ewalk2 do not fail."
  },
  {
   "property": "C192",
   "status": "partial",
   "theorems": [
    "Verif.DecoderLibrary.C192_violated",
    "Verif.DecoderLibrary.C192_elsewhere",
    "Verif.DecoderLibrary.C192_partial",
    "Verif.DecoderLibrary.C192_slash",
    "Verif.DecoderLibrary.C192_distinct",
    "Verif.DecoderLibrary.C192_empty"
   ],
   "note": "Violated: the type is put into the name as it is, so a type with a slash in it, which a client may send, is looked for in another directory (C192_violated, C192_elsewhere). C192_partial: with no slash in the type the library is in the directory and has the name of the type. C192_slash: the slash at the end of the path makes no difference (to the library; the decoder is loaded anew all the same, since the paths are compared before). C192_distinct: different types never share a library or a class. C192_empty: an empty path is undefined behaviour, the character before its first is read. What the class loader makes of the name is C137."
  },
  {
   "property": "C193",
   "status": "partial",
   "theorems": [
    "Verif.Receiver.C193_violated",
    "Verif.Receiver.C193_tcp",
    "Verif.Receiver.C193_report",
    "Verif.Receiver.C193_partial",
    "Verif.Receiver.C193_limits",
    "Verif.Receiver.C193_memory"
   ],
   "note": "Violated: init of the TCP decoder is empty and does not call that of the base class, so every message is accepted, whatever the types of its values, and nothing of it is taken over, while the receiver keeps the message as the configuration of the decoder (C193_violated, C193_tcp). C193_partial: the UDP decoder has the settings of every message it accepts; C193_limits: and these are within its limits. C193_memory: the TCP decoder asks for buffers with room for five frames each and puts one in each, so the shared memory holds a fifth of the frames there is room for."
  },
  {
   "property": "C194",
   "status": "partial",
   "theorems": [
    "Verif.Timestamp.C194_violated",
    "Verif.Timestamp.C194_before",
    "Verif.Timestamp.C194_partial",
    "Verif.Timestamp.C194_distinct",
    "Verif.Timestamp.C194_messages",
    "Verif.Timestamp.C194_no_clock",
    "Verif.Timestamp.C194_day",
    "Verif.Timestamp.calendar"
   ],
   "note": "Violated in its second half: the parser of boost does not compare hours, minutes and seconds with 24 and 60 and takes a minus sign, so 2026-01-01T99:99:99 is a valid time stamp four days later (C194_violated) and 2026-01-01T-10:00:00 one of the day before (C194_before). C194_partial: what is written is read back exactly, with the calendar proved for all days (calendar), C194_distinct: no two times have the same text. C194_messages: the round trip of a message through its text (C62, C118) with these texts, without the assumption on time stamps that C62 and C118 have. C194_no_clock, C194_day: a text without T, or one with a day that is not in the calendar, is refused. The functions of boost are not in the repository and are modelled from its published sources; names of months and locales are left out, and the 64-bit overflow of very large hours is not modelled."
  },
  {
   "property": "C195",
   "status": "partial",
   "theorems": [
    "Verif.Pool.C195_violated",
    "Verif.Pool.C195_wraps",
    "Verif.Pool.C195_exclusive",
    "Verif.Pool.C195_counter",
    "Verif.Pool.C195_partial",
    "Verif.Pool.C195_exactly"
   ],
   "note": "Violated in its first half: the controller deletes the pools in its shutdown, and a frame that is destroyed later is given back to a new pool, which has counted no block: it then reports 2^64 - 1 blocks in use, with one free block and none in all (C195_violated, C195_wraps). C195_counter: the counter is too low by the blocks that were in use when the pools were deleted; C195_partial, C195_exactly: it is right if and only if there were none. C195_exclusive: no block is handed to two users all the same. Histories are sequences of whole operations; the schedules within them are in C100 and C169."
  },
  {
   "property": "C196",
   "status": "partial",
   "theorems": [
    "Verif.Fault.C196_violated",
    "Verif.Fault.C196_running",
    "Verif.Fault.C196_line",
    "Verif.Fault.C196_lines",
    "Verif.Fault.C196_exactly",
    "Verif.Fault.C196_partial",
    "Verif.Fault.C196_order",
    "Verif.Fault.C196_again",
    "Verif.Fault.C196_terminate",
    "Verif.Fault.leave_exited"
   ],
   "note": "Violated: the handler calls exit, which destroys the static objects, the last one made first. That is the context of ZeroMQ, made with the first channel, and not the controller with the channels, which would be destroyed by the application in main, but main is not left. Destroying a context waits until its sockets are closed: as long as there is a controller a program with a fault hangs after its trace, or, if another thread polls, that one gets an exception and calls exit a second time, which is undefined (C196_violated, C196_running). C196_order: with the objects made in the other order it would end. C196_exactly: it ends properly exactly if no channel is open and no destructor faults or needs a lock that is held; C196_partial: so before the controller is made. C196_line: the line is always written, with its own name and number. C196_again: faults in destructors. C196_terminate: exceptions that nobody catches take the same way. What ZeroMQ does is taken from its documentation, what exit does from the standard."
  },
  {
   "property": "C197",
   "status": "partial",
   "theorems": [
    "Verif.Ownership.C197_violated",
    "Verif.Ownership.C197_cycle",
    "Verif.Ownership.C197_partial",
    "Verif.Ownership.C197_exception",
    "Verif.Ownership.C197_without",
    "Verif.Ownership.left_exactly"
   ],
   "note": "Violated twice. A plugin may be connected to itself, or plugins in a cycle; their callbacks are shared pointers, shutdown clears the map of plugins but not the callbacks, so they keep each other alive, with the channels of their meta data, and the context of ZeroMQ waits for them at exit (C197_violated, C197_cycle). And a file writer holds the controller: after an exception in the configuration run is left without shutdown, the application releases its pointer, and controller and writer keep each other; the destructor that would call shutdown, as its comment says, is never called (C197_exception). C197_partial: after shutdown all is destroyed if the plugins are connected without a cycle. C197_without: without a file writer an exception is as good as shutdown. left_exactly: what is left are exactly the sets of objects held from within. Not modelled: threads of plugins that still hold a frame, plugins called controller, the null pointer of disconnectPlugin without a shared memory controller."
  },
  {
   "property": "C198",
   "status": "partial",
   "theorems": [
    "Verif.Pipes.C198_violated",
    "Verif.Pipes.C198_lost",
    "Verif.Pipes.C198_for_ever",
    "Verif.Pipes.C198_partial",
    "Verif.Pipes.C198_no_wait",
    "Verif.Pipes.C198_conserved",
    "Verif.Pipes.C198_read",
    "Verif.Pipes.C198_counted"
   ],
   "note": "Violated: the limits of the channels are those of ZeroMQ, a thousand messages, and PUB and ROUTER sockets drop what does not fit. With more buffers than that, a processor that does not read for a while (its reactor waits in the work queue of a plugin, C28, C102) loses frames, and the buffers of these frames are never used again (C198_violated; C198_lost for every limit and every number of buffers above it; C198_for_ever). C198_partial: as the messages on the way are about different buffers, nothing is lost, whatever happens, if the buffers and the other messages in a pipe fit into it; C198_no_wait: nor does the thread wait then. C198_conserved: every buffer is always in exactly one place, or lost. C198_counted: a frame that is lost is counted as received. What the sockets do is taken from the documentation of ZeroMQ. Threads that are stopped and started are in C86 and C87; messages lost before a subscriber is connected are not modelled here."
  },
  {
   "property": "C199",
   "status": "partial",
   "theorems": [
    "Verif.LogContext.C199_violated",
    "Verif.LogContext.C199_thread",
    "Verif.LogContext.C199_partial",
    "Verif.LogContext.C199_before",
    "Verif.LogContext.C199_never",
    "Verif.LogContext.C199_app",
    "Verif.LogContext.C199_host",
    "Verif.LogContext.C199_race"
   ],
   "note": "Violated: no thread is ever given a name, so all threads of a process have that of the first one, and the field \"thread\" is the same in all lines (C199_violated, C199_thread). The thread of the receiver writes its first line before its context is set, from level 1 on (C199_before); the simulator never sets one (C199_never). A name of a host with 64 characters, which Linux allows, loses the last one (C199_host). The controller of the processor asks for the user while the thread that it has made does so as well, with a function that returns a static buffer (C199_race). C199_partial: whatever a thread writes after it has set its context has host (of less than 64 characters), process, program and user, whatever happens in other threads; C199_app: the program is the last component of its path, for every path. That contexts belong to threads and are empty at first is taken from log4cxx, that names are inherited from Linux. Not modelled: the layout of the lines."
  },
  {
   "property": "C20",
   "status": "partial",
   "theorems": [
    "Verif.GapFill.C20_partial",
    "Verif.GapFill.C20_violated",
    "Verif.GapFill.C20_pixels",
    "Verif.GapFill.C20_negative",
    "Verif.GapFill.C20_bytes",
    "Verif.GapFill.C20_exact",
    "Verif.GapFill.C20_mismatch_dropped",
    "Verif.GapFill.C20_unconfigured_ub",
    "Verif.GapFill.C20_negative_gap_ub"
   ],
   "note": "C20_partial: with the arithmetic of C++ a configured plugin with non-negative gaps is exact whenever the new image has fewer than 2^31 bytes (and pixels). Without the bound it is false: the lengths and offsets of insert_gaps are ints, although the frame can be larger; with 2^31 pixels the product of the lengths overflows (C20_pixels, C20_violated), and with 30000 x 30000 pixels of 4 bytes the offset of row 20000 becomes negative and the copy leaves the image (C20_bytes). C20_exact is the same for every size with unbounded numbers. Before configuration and with negative gaps the code is undefined (the two _ub theorems)."
  },
  {
   "property": "C200",
   "status": "partial",
   "theorems": [
    "Verif.SimOptions.C200_violated",
    "Verif.SimOptions.C200_partial",
    "Verif.SimOptions.C200_twice",
    "Verif.SimOptions.C200_twice_ports",
    "Verif.SimOptions.C200_wrong",
    "Verif.SimOptions.C200_unknown"
   ],
   "note": "Violated: parse_arguments catches all exceptions and main does not use its result, so what was stored before an exception is simulated. An option given a second time is refused by boost with an exception: all that follows is ignored, and the frames are sent with the settings up to there (C200_twice, for all lines; C200_violated: 1000 frames instead of 10), or the program is terminated by a second exception if the ports are not among them (C200_twice_ports). C200_partial: with known options, each once with a value that can be converted, and the address, the settings are those of the line. C200_wrong: with a value that cannot be converted, and no option twice, nothing is sent; C200_unknown: nor with an unknown option, though the exit code is 0. boost::program_options is taken from its sources as described in the model. Not modelled: abbreviated names, and the generic options of the first parser."
  },
  {
   "property": "C201",
   "status": "partial",
   "theorems": [
    "Verif.SimDrop.C201_violated",
    "Verif.SimDrop.C201_partial",
    "Verif.SimDrop.C201_all",
    "Verif.SimDrop.C201_ends",
    "Verif.SimDrop.C201_frame",
    "Verif.SimDrop.C201_order",
    "Verif.SimDrop.C201_zero"
   ],
   "note": "Violated: with fraction 1 a packet is sent all the same when rand gives RAND_MAX, and only then (C201_all), so the share is not the fraction (C201_violated); a gap of 0 divides by zero as soon as a packet is sent (C201_zero). C201_partial: for every fraction from 0 to 1 the number of draws that leave a packet out is that of the fraction within one of 2^31; C201_ends: nothing is left out for fractions up to 0, everything above 1. C201_frame: for every other gap, also negative ones, packets and pauses are as stated; C201_order: a pause comes directly behind the packet it counts. The quotient is taken to be exact, while the code rounds it to a double. That rand gives all numbers equally often is not part of the claim."
  },
  {
   "property": "C21",
   "status": "partial",
   "theorems": [
    "Verif.Sum.C21_violated",
    "Verif.Sum.C21_partial",
    "Verif.Sum.C21_other_types",
    "Verif.Sum.C21_large_ub"
   ],
   "note": "False as stated for images of 2^31 bytes and more, because the image size is an int (C21_violated, C21_large_ub). Proved below 2^31 bytes."
  },
  {
   "property": "C22",
   "status": "partial",
   "theorems": [
    "Verif.ParamAdjust.C22_violated",
    "Verif.ParamAdjust.C22_partial",
    "Verif.ParamAdjust.C22_reachable",
    "Verif.ParamAdjust.C22_configure",
    "Verif.ParamAdjust.C22_errors",
    "Verif.ParamAdjust.C22_offset_partial"
   ],
   "note": "Proved, with the exact dependence on the order of names, unless the sum of the (signed) frame number and the adjustment overflows, which is undefined (C22_violated)."
  },
  {
   "property": "C23",
   "status": "partial",
   "theorems": [
    "Verif.LiveView.C23_violated",
    "Verif.LiveView.C23_single_violated",
    "Verif.LiveView.C23_overflow_ub",
    "Verif.LiveView.C23_remainder_ub",
    "Verif.LiveView.C23_partial",
    "Verif.LiveView.C23_single_partial",
    "Verif.LiveView.C23_rate_exact",
    "Verif.LiveView.C23_rate_truncated",
    "Verif.LiveView.C23_rate_partial",
    "Verif.LiveView.C23_rate_violated",
    "Verif.LiveView.C23_negative"
   ],
   "note": "False as stated: the count is a static variable shared by all live view plugins (C23_violated), wraps after 2^31 frames (C23_single_violated, C23_overflow_ub, and C23_remainder_ub for frequency -1), and the period is cut to milliseconds (C23_rate_violated). Proved for filtered datasets, for a single plugin, below 2^31 frames, and for rates dividing 1000. C23_negative: a negative frequency acts as its absolute value."
  },
  {
   "property": "C24",
   "status": "partial",
   "theorems": [
    "Verif.Blosc.C24_violated",
    "Verif.Blosc.C24_violated_unavailable",
    "Verif.Blosc.C24_partial",
    "Verif.Blosc.C24_ranges",
    "Verif.Blosc.C24_threads_partial",
    "Verif.Blosc.C24_zero_threads",
    "Verif.Blosc.C24_wrong_type_refused",
    "Verif.Blosc.C24_values"
   ],
   "note": "False as stated for the empty acquisition id and for compressors missing from the library; 0 threads are accepted. Proved for non-empty ids and available compressors; ranges of level, shuffle and compressor are unconditional; C24_values says what is stored for each value sent."
  },
  {
   "property": "C25",
   "status": "partial",
   "theorems": [
    "Verif.Kafka.C25_violated",
    "Verif.Kafka.C25_violated_image",
    "Verif.Kafka.C25_partial",
    "Verif.Kafka.C25_image_partial",
    "Verif.Kafka.C25_too_big",
    "Verif.Kafka.C25_put"
   ],
   "note": "False as stated: a header of exactly 65535 bytes gets length 0 (C25_violated), and the whole data block is sent rather than the image (C25_violated_image). Proved for shorter headers and frames whose image is the block."
  },
  {
   "property": "C26",
   "status": "proved",
   "theorems": [
    "Verif.Pool.C26_exclusive",
    "Verif.Pool.C26_counters",
    "Verif.Pool.C26_used_memory",
    "Verif.Pool.C26_reused"
   ],
   "note": "Memory allocation does not fail; the pool operations are atomic."
  },
  {
   "property": "C27",
   "status": "partial",
   "theorems": [
    "Verif.Pool.C27_violated",
    "Verif.Pool.C27_shared",
    "Verif.Pool.C27_use_after_release",
    "Verif.Pool.C27_partial"
   ],
   "note": "False of the code: the copy constructor shares the block and both destructors release it. Proved for histories of construction, writing, assignment between frames of one size, and destruction."
  },
  {
   "property": "C28",
   "status": "proved",
   "theorems": [
    "Verif.WorkQueue.C28_fifo",
    "Verif.WorkQueue.C28_bounded"
   ],
   "note": "Any number of producers and consumers, any schedule, with spurious wake-ups."
  },
  {
   "property": "C29",
   "status": "partial",
   "theorems": [
    "Verif.WorkQueue.C29_violated",
    "Verif.WorkQueue.C29_partial",
    "Verif.WorkQueue.C29_woken",
    "Verif.WorkQueue.C29_hang_permanent"
   ],
   "note": "False of the code: with 16 producers one consumer can sleep on a full queue for good, because producers and consumer share one condition variable (C29_violated). Proved for one consumer and fewer than 16 producers."
  },
  {
   "property": "C30",
   "status": "partial",
   "theorems": [
    "Verif.SharedBuffer.C30_created_partial",
    "Verif.SharedBuffer.C30_size_violated",
    "Verif.SharedBuffer.C30_created_iff",
    "Verif.SharedBuffer.C30_partial",
    "Verif.SharedBuffer.C30_violated",
    "Verif.SharedBuffer.C30_violated_refused",
    "Verif.SharedBuffer.C30_negative_refused"
   ],
   "note": "Proved for a region as created and processes attached to it since. False when a second manager is created under the same name while a process is attached (C30_violated), even if that creation is refused (C30_violated_refused), and for memory sizes whose sum with that of the header wraps at 64 bits: they are accepted, and every buffer is outside of the mapping (C30_size_violated)."
  },
  {
   "property": "C31",
   "status": "partial",
   "theorems": [
    "Verif.Decoder.C31_partial",
    "Verif.Decoder.C31_distinct",
    "Verif.Decoder.C31_violated",
    "Verif.Decoder.C31_shared",
    "Verif.Decoder.C31_written_after_hand_on",
    "Verif.Decoder.C31_violated_number",
    "Verif.Decoder.C31_violated_reconfigure",
    "Verif.Decoder.C31_reconfigure_dangling"
   ],
   "note": "False of the code: a late packet of a frame that has just timed out is written to the buffer already handed on, and completes it a second time (C31_violated); also for frame number 0xFFFFFFFF and after reconfiguration. Proved for all other histories."
  },
  {
   "property": "C32",
   "status": "partial",
   "theorems": [
    "Verif.Decoder.C32_partial",
    "Verif.Decoder.C32_limits",
    "Verif.Decoder.C32_violated",
    "Verif.Decoder.C32_violated_state",
    "Verif.Decoder.C32_violated_payload",
    "Verif.Decoder.C32_violated_first"
   ],
   "note": "False of the code: the packet number is never compared with the size of the array or buffer, and frame number 0xFFFFFFFF as first packet uses a null pointer. Proved for packet numbers of the frame and other frame numbers, after every history."
  },
  {
   "property": "C33",
   "status": "partial",
   "theorems": [
    "Verif.Decoder.C33_partial",
    "Verif.Decoder.C33_marks",
    "Verif.Decoder.C33_violated"
   ],
   "note": "False of the code: duplicates are counted (C33_violated). Proved, with payloads, without duplicates and packets of frames that have just timed out."
  },
  {
   "property": "C34",
   "status": "partial",
   "theorems": [
    "Verif.Decoder.C34_packets",
    "Verif.Decoder.C34_timedout",
    "Verif.Decoder.C34_lost_partial",
    "Verif.Decoder.C34_dropped_partial",
    "Verif.Decoder.C34_dropped_bounds",
    "Verif.Decoder.C34_violated",
    "Verif.Decoder.C34_violated_lost",
    "Verif.Decoder.C34_violated_wrap",
    "Verif.Decoder.C34_stored_counted_dropped"
   ],
   "note": "Packets and timed-out frames are counted exactly in every history. Dropped frames and lost packets are not (C34_violated, C34_violated_lost, C34_violated_wrap); proved exact without duplicates, and if no two frames are dropped in succession."
  },
  {
   "property": "C35",
   "status": "partial",
   "theorems": [
    "Verif.Decoder.C35_partial",
    "Verif.Decoder.C35_violated",
    "Verif.Decoder.C35_clock_ub",
    "Verif.Decoder.C35_late",
    "Verif.Decoder.C35_soon",
    "Verif.Decoder.quotient_floor"
   ],
   "note": "The age is cut to milliseconds (C35_violated), computed from doubles that hold the time since 1970 to 256 ns (C35_late, C35_soon), and a clock set back is undefined (C35_clock_ub). C35_partial: a frame is handed on from one millisecond after the timeout on and not before, within 512 ns, for clocks between 1970 and 2038 and frames younger than 49 days."
  },
  {
   "property": "C36",
   "status": "partial",
   "theorems": [
    "Verif.Receiver.C36_violated",
    "Verif.Receiver.C36_decoder_partial",
    "Verif.Receiver.C36_buffer_partial",
    "Verif.Receiver.C36_partial",
    "Verif.Receiver.C36_always"
   ],
   "note": "False of the code: the need_decoder_reconfig flag is never cleared, so every later configure command reloads everything (C36_violated, C36_always). Proved for states in which no decoder has been asked for."
  },
  {
   "property": "C37",
   "status": "partial",
   "theorems": [
    "Verif.Receiver.C37_violated",
    "Verif.Receiver.C37_partial",
    "Verif.Receiver.C37_flags"
   ],
   "note": "False of the code: the release channel is not taken into account. Proved for the three others. C37_flags: the flag of each channel is set exactly if an endpoint is stored for it, after accepted and refused commands."
  },
  {
   "property": "C38",
   "status": "partial",
   "theorems": [
    "Verif.Receiver.C38_violated",
    "Verif.Receiver.C38_violated_ports",
    "Verif.Receiver.C38_violated_name",
    "Verif.Receiver.C38_id_ub",
    "Verif.Receiver.C38_partial",
    "Verif.Receiver.C38_none",
    "Verif.Receiver.C38_ack",
    "Verif.Receiver.C38_configure_partial",
    "Verif.ProcessorCtrl.C38_processor_violated",
    "Verif.ProcessorCtrl.C38_processor_unaddressed",
    "Verif.ProcessorCtrl.C38_processor_wrong_type",
    "Verif.ProcessorCtrl.C38_processor_partial",
    "Verif.ProcessorCtrl.C38_processor_ack"
   ],
   "note": "False of both programs. Receiver: exceptions of the shared memory, an empty port list and one-character decoder parameters leave the handler without reply. Processor: undecodable messages and message exceptions get no reply, runtime errors one without address. Proved whenever the handler returns (receiver) or the command does not throw (processor), with a sufficient condition for configure commands."
  },
  {
   "property": "C39",
   "status": "partial",
   "theorems": [
    "Verif.Ipc.C39_violated",
    "Verif.Ipc.C39_changed",
    "Verif.Ipc.C39_brackets",
    "Verif.Ipc.C39_partial",
    "Verif.Ipc.C39_refused_partial",
    "Verif.Ipc.C39_append_partial",
    "Verif.Ipc.C39_has",
    "Verif.Ipc.C39_slash",
    "Verif.Ipc.C39_doc",
    "Verif.Ipc.C39_types"
   ],
   "note": "False of the code: one-character names throw std::out_of_range (C39_violated), possibly after creating the parents (C39_changed), and names ending in [] cannot be read back (C39_brackets). Proved for all paths whose first and last component have at least two characters and do not end in [], with the appending notation treated separately. C39_doc: the same for whole messages, whose params block is made if missing and whose other attributes stay."
  },
  {
   "property": "C40",
   "status": "proved",
   "theorems": [
    "Verif.Ipc.C40_type",
    "Verif.Ipc.C40_val",
    "Verif.Ipc.C40_type_names",
    "Verif.Ipc.C40_type_unknown",
    "Verif.Ipc.C40_val_unknown"
   ],
   "note": "All enumerators and all strings."
  },
  {
   "property": "C41",
   "status": "partial",
   "theorems": [
    "Verif.Reactor.C41_violated",
    "Verif.Reactor.C41_partial",
    "Verif.Reactor.C41_round_partial",
    "Verif.Reactor.C41_exact_partial",
    "Verif.Reactor.C41_forever_partial"
   ],
   "note": "False as stated only for delays near 2^64 ms, where the sum wraps (C41_violated). Proved for clock values and delays below 2^62 ms, over all histories: never early, never too often, silent after removal, and fired exactly as often as requested."
  },
  {
   "property": "C42",
   "status": "partial",
   "theorems": [
    "Verif.Reactor.C42_violated",
    "Verif.Reactor.C42_ub",
    "Verif.Reactor.C42_partial"
   ],
   "note": "False for a timer registered by another thread while the loop polls (C42_violated) and undefined for delays of 2^63 ms (C42_ub). Proved for the timers registered when the timeout is computed."
  },
  {
   "property": "C43",
   "status": "partial",
   "theorems": [
    "Verif.Receiver.C43_violated",
    "Verif.Receiver.C43_partial",
    "Verif.Receiver.C43_range",
    "Verif.Receiver.C43_empty",
    "Verif.Receiver.C43_reading"
   ],
   "note": "A text without a valid port gives an empty list, and reporting it throws (C43_violated). Proved for all non-empty lists; every configured port is between 1 and 65535. C43_reading: what strtol with base 0 reads from any text with digits (blanks, sign, prefix, base, end, range)."
  },
  {
   "property": "C44",
   "status": "partial",
   "theorems": [
    "Verif.Simulator.C44_violated",
    "Verif.Simulator.C44_single",
    "Verif.Simulator.C44_endless",
    "Verif.Simulator.C44_partial",
    "Verif.Simulator.C44_pattern",
    "Verif.SimulatorBytes.C44_bytes_partial",
    "Verif.SimReplay.C44_sizes",
    "Verif.SimReplay.C44_no_pixels",
    "Verif.SimReplay.C44_product",
    "Verif.SimReplay.C44_negative",
    "Verif.SimReplay.C44_throws"
   ],
   "note": "False of the code for images that fit into one packet (undefined behaviour) and for packet length 0 (never ends). Proved otherwise, through the decoder: any number of frames, any interleaving of all packets, no timeouts, as many buffers as frames. C44_bytes_partial is the same for the datagrams as bytes, with the receiver of C166 and any old contents of the buffers: the last datagram of a frame is shorter than the others if the packet size does not divide the image, and still all bytes of the image are right; the bytes behind the image keep what the buffer held. With the sizes as int, as the options give them: undefined from 2^31 pixels on (C44_product) and for packet lengths from -8 to -1 (C44_negative); an exception for a negative number of pixels or a smaller packet length (C44_throws); no frames without pixels (C44_no_pixels)."
  },
  {
   "property": "C45",
   "status": "proved",
   "theorems": [
    "Verif.Plugin.C45_push",
    "Verif.Plugin.C45_invalid",
    "Verif.Plugin.C45_push_to",
    "Verif.Plugin.C45_again",
    "Verif.Plugin.C45_confirm",
    "Verif.Plugin.C45_end"
   ],
   "note": "For all histories of registrations and removals by one thread; changes while another thread iterates over the callbacks (a data race) are not modelled."
  },
  {
   "property": "C46",
   "status": "partial",
   "theorems": [
    "Verif.SharedFrame.C46_violated",
    "Verif.SharedFrame.C46_unmapped",
    "Verif.SharedFrame.C46_ignored",
    "Verif.SharedFrame.C46_crash",
    "Verif.SharedFrame.C46_timer",
    "Verif.SharedFrame.C46_partial",
    "Verif.SharedFrame.C46_last"
   ],
   "note": "False of the code: held frames refer to a destroyed channel or unmapped memory after a change of endpoints or buffer configuration, frames announced before the configuration are never released, a timer outlives its controller. Proved when the interface changes only while no frame is held, for any number of holders and any order of dropping."
  },
  {
   "property": "C47",
   "status": "partial",
   "theorems": [
    "Verif.DummyProcess.C47_violated",
    "Verif.DummyProcess.C47_blanked_partial",
    "Verif.DummyProcess.C47_received_partial",
    "Verif.DummyProcess.C47_complete_untouched",
    "Verif.DummyProcess.C47_duplicate_hides_missing",
    "Verif.DummyProcess.C47_too_many_ub",
    "Verif.DummyProcess.C47_counter_ub"
   ],
   "note": "False of the code: a duplicate packet makes the counts agree and hides a missing one. Proved for headers whose received count is below the expected one and whose packets fit the frame. A duplicate packet makes the counts agree and hides a missing one (C47_duplicate_hides_missing); more packets than the state array holds is undefined (C47_too_many_ub), as is the 2^31st lost packet, whose counter is an int (C47_counter_ub)."
  },
  {
   "property": "C48",
   "status": "proved",
   "theorems": [
    "Verif.C48_type_roundtrip",
    "Verif.C48_compression_roundtrip",
    "Verif.C48_type_exact",
    "Verif.C48_compression_exact",
    "Verif.C48_size"
   ],
   "note": ""
  },
  {
   "property": "C49",
   "status": "partial",
   "theorems": [
    "Verif.ProcessorRun.C49_violated",
    "Verif.ProcessorRun.C49_unique",
    "Verif.ProcessorRun.C49_partial"
   ],
   "note": "False of the code: a stored configuration can execute itself. Proved when executions form no cycle."
  },
  {
   "property": "C50",
   "status": "partial",
   "theorems": [
    "Verif.Shutdown.C50_violated",
    "Verif.Shutdown.C50_spurious",
    "Verif.Shutdown.C50_partial",
    "Verif.ShutdownTwice.C50_again",
    "Verif.ShutdownTwice.C50_attempts",
    "Verif.ShutdownTwice.C50_once"
   ],
   "note": "False of the code: the wait has no condition, so a request before it is lost and a spurious return shuts down. Proved from the moment the main thread waits. The other half holds: after a whole shutdown further ones change nothing (C50_again), and however many attempts exceptions have cut short, state and effects are those of one that got as far as the furthest (C50_attempts, C50_once)."
  },
  {
   "property": "C51",
   "status": "proved",
   "theorems": [
    "Verif.Plugin.C51_log",
    "Verif.Plugin.C51_once"
   ],
   "note": ""
  },
  {
   "property": "C52",
   "status": "partial",
   "theorems": [
    "Verif.Params.C52_violated",
    "Verif.Params.C52_nested",
    "Verif.Params.C52_nul",
    "Verif.Params.C52_encode",
    "Verif.Params.C52_partial",
    "Verif.Params.C52_absent",
    "Verif.Params.C52_place"
   ],
   "note": "False of the code: paths with a leading slash are encoded elsewhere than the update looks, nested paths overwrite each other, strings end at a NUL. Proved otherwise, for any number of bindings of all types. Escapes and array indices in paths are the subject of C152 and C153, JSON text that of C116 and C119."
  },
  {
   "property": "C53",
   "status": "partial",
   "theorems": [
    "Verif.Acq.C53_violated",
    "Verif.Acq.C53_no_ub_partial",
    "Verif.Acq.C53_zero_processes_ub",
    "Verif.Acq.C53_no_chunks_ub"
   ],
   "note": "False of the code for datasets without chunks and for 0 processes, which the plugin accepts. Proved for at least one process and one frame per block, for every reachable state and frame; false without (C53_zero_processes_ub), and for datasets without chunks, which the plugin accepts (C53_no_chunks_ub). The proof also asks that the products of the geometry fit 64 bits; see C13_product_ub for what happens otherwise."
  },
  {
   "property": "C54",
   "status": "proved",
   "theorems": [
    "Verif.Acq.C54_announced",
    "Verif.Acq.C54_announced_run"
   ],
   "note": ""
  },
  {
   "property": "C55",
   "status": "partial",
   "theorems": [
    "Verif.FW.C55_violated",
    "Verif.FW.C55_violated_id",
    "Verif.FW.C55_partial",
    "Verif.FW.C55_frames_keep_foreign",
    "Verif.FW.C55_history"
   ],
   "note": "False as stated: with an empty path, or a file name equal to the next acquisition id, the restart truncates the file just written. Proved for a set path, unchanged postfix, extension and numbering, and both acquisitions named the same way."
  },
  {
   "property": "C56",
   "status": "proved",
   "theorems": [
    "Verif.FW.C56_start_while_writing",
    "Verif.FW.C56_start_uses_next",
    "Verif.FW.C56_start_starts",
    "Verif.FW.C56_no_name",
    "Verif.FW.C56_stop",
    "Verif.FW.C56_stop_twice"
   ],
   "note": "C56_start_starts is for geometries with at least one process and one frame per block and products that fit 64 bits; for others the outcome of the model is undefined (C13)."
  },
  {
   "property": "C57",
   "status": "partial",
   "theorems": [
    "Verif.FW.C57_violated",
    "Verif.FW.C57_partial",
    "Verif.FW.C57_disarmed",
    "Verif.FW.C57_armed_once"
   ],
   "note": "False of the code: timeout_active_ is never initialised. Proved if it starts as false (locks are the subject of C16)."
  },
  {
   "property": "C58",
   "status": "partial",
   "theorems": [
    "Verif.Kafka.C58_violated",
    "Verif.Kafka.C58_counters_partial",
    "Verif.Kafka.C58_no_topic"
   ],
   "note": "False of the code without a topic, when frames are neither sent nor counted, and for headers of exactly 65535 bytes. Proved otherwise, for every sequence of frames and failures."
  },
  {
   "property": "C59",
   "status": "partial",
   "theorems": [
    "Verif.DummyProcess.C59_violated",
    "Verif.DummyProcess.C59_partial",
    "Verif.DummyProcess.C59_large"
   ],
   "note": "False as stated: the configured image size is never compared with the frame. Proved if the image fits the payload, has less than 2^31 bytes, and the counter of lost packets does not overflow. An image of 2 GiB or more that is not copied gets a negative size (C59_large)."
  },
  {
   "property": "C60",
   "status": "partial",
   "theorems": [
    "Verif.Pool.C60_violated",
    "Verif.Pool.C60_copy_violated",
    "Verif.Pool.C60_assign_ub",
    "Verif.Pool.C60_partial"
   ],
   "note": "False of the code: assignment does not copy the data size. Proved without copy constructor and for assignments between frames of one size."
  },
  {
   "property": "C61",
   "status": "partial",
   "theorems": [
    "Verif.Decoder.C61_partial",
    "Verif.Decoder.C61_violated",
    "Verif.Decoder.C61_timedout"
   ],
   "note": "False of the code: the dropping flag set by another frame stays set, and the complete frame times out (C61_violated, C61_timedout). Proved if no frame was refused a buffer."
  },
  {
   "property": "C62",
   "status": "proved",
   "theorems": [
    "Verif.Ipc.C62",
    "Verif.Ipc.C62_strict",
    "Verif.Ipc.C62_id"
   ],
   "note": "On JSON documents; C118 is about the text of messages. That boost parses the time stamps it writes is a hypothesis, discharged in C194 for the years 1400 to 9999."
  },
  {
   "property": "C63",
   "status": "partial",
   "theorems": [
    "Verif.Ipc.C63_violated",
    "Verif.Ipc.C63_partial"
   ],
   "note": "False of the code: a one-character name throws. Proved for names of at least two characters without slash not ending in []."
  },
  {
   "property": "C64",
   "status": "partial",
   "theorems": [
    "Verif.Receiver.C64_violated",
    "Verif.Receiver.C64_partial"
   ],
   "note": "False of the code after a refused configure command. Proved after every acknowledged one."
  },
  {
   "property": "C65",
   "status": "partial",
   "theorems": [
    "Verif.Receiver.C65_violated",
    "Verif.Receiver.C65_never",
    "Verif.Receiver.C65_partial"
   ],
   "note": "False of the code: the comparison comes after the new path and type have been stored, so the configurations are always merged."
  },
  {
   "property": "C66",
   "status": "partial",
   "theorems": [
    "Verif.Receiver.C66_violated",
    "Verif.Receiver.C66_partial",
    "Verif.Receiver.C66_unlimited"
   ],
   "note": "frame_count_ is not initialised. Proved when a number has been configured."
  },
  {
   "property": "C67",
   "status": "partial",
   "theorems": [
    "Verif.Receiver.C67_violated",
    "Verif.Receiver.C67_violated_status",
    "Verif.Receiver.C67_partial",
    "Verif.Receiver.C67_total"
   ],
   "note": "False of the code: total_buffers_ and frame_count_ are not initialised. Proved once both are set."
  },
  {
   "property": "C68",
   "status": "partial",
   "theorems": [
    "Verif.Reactor.C68_violated",
    "Verif.Reactor.C68_partial",
    "Verif.Reactor.C68_called"
   ],
   "note": "False in the round in which a channel is removed (C68_violated). Proved relative to the channels registered when the round begins."
  },
  {
   "property": "C69",
   "status": "partial",
   "theorems": [
    "Verif.Reactor.C69_violated",
    "Verif.Reactor.C69_partial",
    "Verif.Reactor.C69_stop",
    "Verif.Reactor.C69_stop_request",
    "Verif.Reactor.C69_left"
   ],
   "note": "False of the code: a timer callback that registers or removes a timer waits for a mutex held by its own thread. Proved for all other callbacks; ending on request is unconditional."
  },
  {
   "property": "C70",
   "status": "partial",
   "theorems": [
    "Verif.Watchdog.C70_violated",
    "Verif.Watchdog.C70_ub",
    "Verif.Watchdog.C70_partial"
   ],
   "note": "False of the code: the worker thread is started before the flag and the reactor are initialised. Proved for schedules in which the worker runs after that."
  },
  {
   "property": "C71",
   "status": "partial",
   "theorems": [
    "Verif.Watchdog.C71_violated",
    "Verif.Watchdog.C71_dead",
    "Verif.Watchdog.C71_alive_partial",
    "Verif.Watchdog.C71_written",
    "Verif.Watchdog.C71_reported",
    "Verif.Watchdog.C71_watched"
   ],
   "note": "False of the code: with the default timeout 0 an uninitialised identifier is removed (C71_violated), which can end the watchdog (C71_dead). Proved once a call with a timeout has been made."
  },
  {
   "property": "C72",
   "status": "partial",
   "theorems": [
    "Verif.Watchdog.C72_violated",
    "Verif.Watchdog.C72_same",
    "Verif.Watchdog.C72_partial"
   ],
   "note": "False of the code: the counter is shared by all reactors without synchronisation. Proved for one reactor."
  },
  {
   "property": "C73",
   "status": "partial",
   "theorems": [
    "Verif.Graph.C73_violated",
    "Verif.Graph.C73_null",
    "Verif.Graph.C73_setup_drops",
    "Verif.Graph.C73_uncounted",
    "Verif.Graph.C73_controller_index",
    "Verif.Graph.C73_partial",
    "Verif.Graph.C73_counted"
   ],
   "note": "False of the code: connecting to a plugin not loaded yet is acknowledged without effect, disconnecting from a frame receiver not configured dereferences null, a change of endpoints drops all connections. Proved for all other histories."
  },
  {
   "property": "C74",
   "status": "proved",
   "theorems": [
    "Verif.Chain.C74",
    "Verif.Chain.C74_done",
    "Verif.Chain.C74_tree",
    "Verif.Chain.C74_tree_done"
   ],
   "note": "For all networks, behaviours of the plugins and schedules, with an ideal bounded queue (C28 is about the real one). Frames are values; what happens when a plugin changes a frame that others have is the subject of C130. Direct calls, changes of the connections, exceptions and stopping are not modelled."
  },
  {
   "property": "C75",
   "status": "partial",
   "theorems": [
    "Verif.Chain.C75_violated",
    "Verif.Chain.C75_cycle",
    "Verif.Chain.C75_partial",
    "Verif.Chain.C75_order_partial"
   ],
   "note": "False of the code for a plugin reached in two ways. Proved for trees."
  },
  {
   "property": "C76",
   "status": "partial",
   "theorems": [
    "Verif.Shutdown.C76_violated",
    "Verif.Shutdown.C76_idle",
    "Verif.Shutdown.C76_partial",
    "Verif.Shutdown.C76_ends_partial",
    "Verif.Shutdown.C76_alive"
   ],
   "note": "False of the code: isWorking is false as soon as a plugin is told to stop. Proved instead: in every history a stopped plugin's thread ends by itself within four steps, so waiting for the thread would be sufficient."
  },
  {
   "property": "C77",
   "status": "partial",
   "theorems": [
    "Verif.Shutdown.C77_violated",
    "Verif.Shutdown.C77_stuck",
    "Verif.Shutdown.C77_deadlock",
    "Verif.Shutdown.C77_partial"
   ],
   "note": "False of the code: stop lowers the flag before adding to a queue that may be full, and the thread then ends without making room. Proved for queues with fewer than eight frames and no new frames, in every schedule and within 3n+4 steps of the main thread."
  },
  {
   "property": "C78",
   "status": "partial",
   "theorems": [
    "Verif.ProcessorRun.C78_violated",
    "Verif.ProcessorRun.C78_ignored",
    "Verif.ProcessorRun.C78_partial"
   ],
   "note": "False of the code: a file with a single object is ignored. Proved for arrays."
  },
  {
   "property": "C79",
   "status": "partial",
   "theorems": [
    "Verif.ProcessorRun.C79_violated",
    "Verif.ProcessorRun.C79_eoa",
    "Verif.ProcessorRun.C79_passed",
    "Verif.ProcessorRun.C79_partial"
   ],
   "note": "False of the code: the count is not initialised, ends of acquisition count as frames, and a count set below the frames already processed is never reached. Proved otherwise."
  },
  {
   "property": "C80",
   "status": "partial",
   "theorems": [
    "Verif.Startup.C80_violated",
    "Verif.Startup.C80_null",
    "Verif.Startup.C80_partial"
   ],
   "note": "False of the code: the thread is started before the pointer it assigns has been constructed; if it is fast the pointer is then set to null and dereferenced (C80_null). Proved for every schedule in which the thread gets its turn after the initialisation of the members. Unsynchronised access to plain variables is not modelled."
  },
  {
   "property": "C81",
   "status": "partial",
   "theorems": [
    "Verif.Params.C81_violated",
    "Verif.Params.C81_refused",
    "Verif.Params.C81_partial"
   ],
   "note": "False of the code: 16 bit parameters are cut, and a refused update has changed the parameters before the wrong one and emptied a vector. Proved for successful updates without such values."
  },
  {
   "property": "C82",
   "status": "partial",
   "theorems": [
    "Verif.Simulator.C82_violated",
    "Verif.Simulator.C82_one_frame",
    "Verif.Simulator.C82_lost_frame",
    "Verif.Simulator.C82_packets",
    "Verif.Simulator.C82_partial"
   ],
   "note": "False of the code: packet gap 0 divides by zero, a single stored frame always goes to the first port, a frame all of whose packets are dropped does not count. The order of the packets is proved for all other configurations, the ports without those cases."
  },
  {
   "property": "C83",
   "status": "proved",
   "theorems": [
    "Verif.Decoder.C83"
   ],
   "note": "For every interleaving and any number of frames and packets; decoder model of DummyUDPFrameDecoder, frame numbers other than 0xFFFFFFFF."
  },
  {
   "property": "C84",
   "status": "proved",
   "theorems": [
    "Verif.Receiver.C84"
   ],
   "note": "The decoder, the shared memory and the receiver thread themselves are the environment."
  },
  {
   "property": "C85",
   "status": "partial",
   "theorems": [
    "Verif.Receiver.C85_violated",
    "Verif.Receiver.C85_frames",
    "Verif.Receiver.C85_partial"
   ],
   "note": "False of the code: a frame count of 0 does not replace an earlier one, so the receiver still stops. Proved for every other configuration; the decoder configuration is the subject of C65."
  },
  {
   "property": "C86",
   "status": "partial",
   "theorems": [
    "Verif.Circulation.C86_violated",
    "Verif.Circulation.C86_overwritten",
    "Verif.Circulation.C86_configure",
    "Verif.Circulation.C86_two_processors",
    "Verif.Circulation.C86_partial"
   ],
   "note": "False of the code: a receiver thread started while no buffer is empty asks for all buffers, also those in use, and so does one started after the shared memory was recreated; with two processors each buffer comes back twice. Proved for every interleaving when restarts wait for the messages and for an empty buffer or no buffer in use, and the memory is recreated only while no processor uses a buffer."
  },
  {
   "property": "C87",
   "status": "partial",
   "theorems": [
    "Verif.Circulation.C87_violated",
    "Verif.Circulation.C87_identity",
    "Verif.Circulation.C87_no_processor",
    "Verif.Circulation.C87_partial",
    "Verif.Circulation.C87_return_partial"
   ],
   "note": "False of the code: releases on their way to a thread that is stopped, or arriving before the new thread's identity, are lost, and without a processor all buffers are. Proved for the careful histories of C86."
  },
  {
   "property": "C88",
   "status": "partial",
   "theorems": [
    "Verif.Tcp.C88_violated",
    "Verif.Tcp.C88_never",
    "Verif.Tcp.C88_closed",
    "Verif.Tcp.C88_error",
    "Verif.Tcp.C88_interrupted",
    "Verif.Tcp.C88_partial",
    "Verif.Tcp.C88_few",
    "Verif.Tcp.C88_inside"
   ],
   "note": "False of the code: no frame is ever handed on (C88_never), a closed connection makes the handler loop for ever, an interrupted read loses a byte or throws. Proved: without errors every frame is stored whole, in order, frame k in buffer k+1 mod n (the first buffer used is 1), for every division into reads. C88_few: with fewer buffers in the shared memory than the decoder uses (5), the message for a buffer that is not there is not read, and the handler throws. C88_inside: nothing is ever stored outside."
  },
  {
   "property": "C89",
   "status": "partial",
   "theorems": [
    "Verif.RxThread.C89_violated",
    "Verif.RxThread.C89_ub",
    "Verif.RxThread.C89_width",
    "Verif.RxThread.C89_masked",
    "Verif.RxThread.C89_partial"
   ],
   "note": "False of the code: the comparison with the maximum is written as a shift by 1000, which is undefined whenever the thread is not up at the first look; with the shift taken modulo 32 it gives up after 256 attempts. Proved when the thread is up or has failed at the first look."
  },
  {
   "property": "C90",
   "status": "partial",
   "theorems": [
    "Verif.RxThread.C90_violated",
    "Verif.RxThread.C90_kept",
    "Verif.RxThread.C90_left",
    "Verif.RxThread.C90_blocked",
    "Verif.RxThread.C90_retry",
    "Verif.RxThread.C90_partial"
   ],
   "note": "False of the code: after an error the sockets opened before stay open, and no later thread with such a port comes up. Proved for threads that come up. UDP threads only."
  },
  {
   "property": "C91",
   "status": "partial",
   "theorems": [
    "Verif.StringParse.C91_violated",
    "Verif.StringParse.C91_throws",
    "Verif.StringParse.C91_lines",
    "Verif.StringParse.C91_line",
    "Verif.StringParse.C91_partial"
   ],
   "note": "False of the code: an error within the first 14 characters of the file makes the message itself fail with an exception (C91_throws, for every text). The line number is proved right for every text and position; the text shown for errors further on."
  },
  {
   "property": "C92",
   "status": "partial",
   "theorems": [
    "Verif.Times.C92_violated",
    "Verif.Times.C92_long",
    "Verif.Times.C92_back",
    "Verif.Times.C92_inexact",
    "Verif.Times.C92_partial"
   ],
   "note": "False of the code: durations of 2^32 microseconds (71 minutes) or more are undefined behaviour, and so is a wall clock set back during process_frame. Proved for every pair of readings less than that apart, with the rounding of doubles."
  },
  {
   "property": "C93",
   "status": "partial",
   "theorems": [
    "Verif.Times.C93_violated",
    "Verif.Times.C93_order",
    "Verif.Times.C93_partial"
   ],
   "note": "False of the code: the members are not initialised and are only set by a reset of the statistics. Proved for every sequence with at least one reset. The value called mean is an exponential average that depends on the order (C93_order)."
  },
  {
   "property": "C94",
   "status": "partial",
   "theorems": [
    "Verif.Channel.C94_violated",
    "Verif.Channel.C94_req",
    "Verif.Channel.C94_shifted",
    "Verif.Channel.C94_recv",
    "Verif.Channel.C94_recv_first",
    "Verif.Channel.C94_partial"
   ],
   "note": "False of the code: a message of more than one part shifts the attribution of all that follow and makes a handler wait inside recv, with the event loop. Proved for clients that send messages of one part, any number of clients and messages."
  },
  {
   "property": "C95",
   "status": "partial",
   "theorems": [
    "Verif.Channel.C95_violated",
    "Verif.Channel.C95_partial",
    "Verif.Channel.rnd24_nearest"
   ],
   "note": "False of the code: float rounding makes within(0x10000) give 0x10000 for the 64 largest values of random(), and sprintf then writes 11 or 12 characters into 10. C95_partial is an equivalence. rnd24_nearest: the rounding used is to nearest, ties to even."
  },
  {
   "property": "C96",
   "status": "partial",
   "theorems": [
    "Verif.Channel.C96_violated",
    "Verif.Channel.C96_long",
    "Verif.Channel.C96_unbind_partial",
    "Verif.Channel.C96_partial"
   ],
   "note": "False of the code: an endpoint bound twice (possible with wildcards) leaves an address that nothing unbinds, and so does an address longer than 255 characters. Proved for every other sequence of bind and unbind."
  },
  {
   "property": "C97",
   "status": "partial",
   "theorems": [
    "Verif.Channel.C97_violated",
    "Verif.Channel.C97_all",
    "Verif.Channel.C97_partial"
   ],
   "note": "False of the code: the frame processor never unbinds its control and meta data endpoints, so it listens on every endpoint ever configured (C97_all). Proved for the first endpoint, after any number of failed attempts."
  },
  {
   "property": "C98",
   "status": "partial",
   "theorems": [
    "Verif.Channel.C98_violated",
    "Verif.Channel.C98_overflow",
    "Verif.Channel.C98_partial"
   ],
   "note": "False of the code: the size of a part is never compared with the size of the buffer it is copied to. Proved for parts that fit, any number of messages and parts."
  },
  {
   "property": "C99",
   "status": "partial",
   "theorems": [
    "Verif.Meta.C99_violated",
    "Verif.Meta.C99_lost",
    "Verif.Meta.C99_split",
    "Verif.Meta.C99_partial"
   ],
   "note": "False of the code: messages are sent without waiting and the result is not looked at, so a message sent while the pipe is full is lost and its memory leaked. Proved for every history and any number of plugins: nothing is published twice, out of order, or made up (C99_split); everything is published if no pipe is full when a plugin sends."
  }
 ]
}